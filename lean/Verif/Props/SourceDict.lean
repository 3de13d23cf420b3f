import Verif.Proofs.SourceDictAll
import Verif.Props.Dict
/-!
# C69: `struct_to_dict`, from its text
-/

namespace Atop.Src
open Spec

set_option maxRecDepth 20000

section
variable (Z : Zlib) (fs : FileSystem) (args : CommandLine)

theorem class_conv {t : CType} (ht : t ∈ classes) : ∃ c F l, t = .struct c F l ∧ (CType.struct c F l).good = true ∧
    plain (.struct c F l) = true ∧ deep (.struct c F l) ≤ 4 := by
  obtain ⟨c, F, l, rfl, -⟩ := class_struct ht
  exact ⟨c, F, l, rfl, class_good ht, List.all_eq_true.mp classes_plain _ ht, of_decide_eq_true (List.all_eq_true.mp classes_deep _ ht)⟩

theorem call_conv {n : Nat} {w : W} {x u : Val} (h : Conv ((program Z fs args).at n) w x u) :
    ((program Z fs args).at n).call py!"atoparser" py!"struct_to_dict" [x] [] w = (.ok u, w) := h

/-- **C69** `atoparser.struct_to_dict(x)`, executed on an object of any structure class at any place in memory: nothing
changes, and the result is the dictionary of the model. -/
theorem C69_struct_to_dict (n : Nat) (w : W) (t : CType) (ht : t ∈ classes) (blk off : Nat) :
    ∃ v, ((program Z fs args).at (n + 4)).call py!"atoparser" py!"struct_to_dict" [.view t blk off] [] w = (.ok v, w) ∧
      structToDict { ty := t, buf := mem w blk off t.size } = .ok (toJ v) := by
  obtain ⟨c, F, l, rfl, hg, hp, hd⟩ := class_conv ht
  obtain ⟨kvs, h1, h2⟩ := nested_all (Z := Z) (fs := fs) (args := args) w (n + 4) c F l blk off hg hp (by omega)
  refine ⟨.dict kvs, call_conv Z fs args h1, ?_⟩
  rw [structToDict_good hg, ← h2]
  rfl

/-- **C69** ... on a header object: likewise (the instance attributes it has after its version was asked for are not
fields and do not show). -/
theorem C69_header (n : Nat) (out : PyStr) (w : World) (i : Nat) (h : Header) (hh : w.header i = some h) (hc : h.cls ∈ versions) :
    ∃ v, ((program Z fs args).at (n + 5)).call py!"atoparser" py!"struct_to_dict" [.hdr i] [] (emb out w) = (.ok v, emb out w) ∧
      structToDict h.inst = .ok (toJ v) := by
  obtain ⟨o, h1, h2, h3, h4⟩ := header_some hh
  have ho := emb_hdr (out := out) h1
  have hmem : headerTy h.cls ∈ classes := List.mem_append_right _ (List.mem_map.mpr ⟨h.cls, hc, rfl⟩)
  obtain ⟨c, F, l, he, hg, hp, hd⟩ := class_conv hmem
  unfold headerTy at he
  cases he
  obtain ⟨kvs, k1, k2⟩ := conv_obj (nested_all (Z := Z) (fs := fs) (args := args) (emb out w) (n + 4)) (isObj_hdr ho (by rw [h2]; exact hc))
    (by rw [h2]; exact hg) (by rw [h2]; exact hp) (by simp only [deep] at hd; rw [h2]; omega)
  refine ⟨.dict kvs, call_conv Z fs args k1, ?_⟩
  unfold Header.inst
  rw [structToDict_good hg, h4]
  simp only [toJ, k2, h2]
  rfl

/-- **C69** ... on a cgroup (a `CGChainer`, which is no ctypes structure): likewise. -/
theorem C69_cgroup (n : Nat) (w : W) (g : Obj.Group) (ht : g.cstat.ty ∈ classes) (k : Nat) (hp : g.proclist.ty = .array pid_t k) :
    ∃ v, ((program Z fs args).at (n + 5)).call py!"atoparser" py!"struct_to_dict" [groupVal g] [] w = (.ok v, w) ∧
      CGroup.toDict { cstat := { ty := g.cstat.ty, buf := mem w g.cstat.blk 0 g.cstat.ty.size },
                      proclist := { ty := g.proclist.ty, buf := mem w g.proclist.blk 0 g.proclist.ty.size } } = .ok (toJ v) := by
  obtain ⟨c, F, l, he, hg, hpl, hd⟩ := class_conv ht
  obtain ⟨kvs, h1, h2⟩ := conv_group (Z := Z) (fs := fs) (args := args) (n := n + 4) (w := w) he hp hg hpl (by omega)
  refine ⟨_, call_conv Z fs args h1, ?_⟩
  unfold CGroup.toDict
  simp only [he, hp]
  rw [structToDict_good hg, ← h2]
  have hm : ∀ (d : Bytes), (chunks d pid_t.size k).mapM (m := Except Exc) (fun b => pid_t.toDictElem b) = .ok ((chunks d pid_t.size k).map fun b => .int (leInt true b)) :=
    fun d => mapM_ok _ _
  rw [hm]
  simp only [toJ, toJkvs, bind, Except.bind, pure, Except.pure]
  congr 6
  rw [toJs_map]
  unfold chunks arrayItems
  rw [List.map_map, List.map_map]
  apply List.map_congr_left
  intro j hj
  have hj' := List.mem_range.mp hj
  simp only [Function.comp_apply]
  show JVal.int _ = JVal.int _
  congr 2
  show ((mem w g.proclist.blk 0 (k * 4)).drop (j * 4)).take 4 = mem w g.proclist.blk (0 + j * 4) 4
  rw [mem_mem (by omega)]

/-- The memory of a `UTSName`: "Linux", "h\xff" (not UTF-8), and four empty texts. -/
def utsMem : Bytes := [76, 105, 110, 117, 120] ++ List.replicate 60 0 ++ [104, 255] ++ List.replicate 323 0

/-- C69 on a `UTSName` that lies at byte 7 of a block. -/
example : ∃ v, ((program Z fs args).at 4).call py!"atoparser" py!"struct_to_dict" [.view Shared.UTSName 1 7] []
      { W.empty with heap := [[], List.replicate 7 1 ++ utsMem ++ [5]] } =
        (.ok v, { W.empty with heap := [[], List.replicate 7 1 ++ utsMem ++ [5]] }) ∧
    toJ v = .dict [(py!"sysname", .str py!"Linux"), (py!"nodename", .str py!"h"), (py!"release", .str []), (py!"version", .str []),
      (py!"machine", .str []), (py!"domain", .str [])] := by
  obtain ⟨v, h1, h2⟩ := C69_struct_to_dict Z fs args 0 { W.empty with heap := [[], List.replicate 7 1 ++ utsMem ++ [5]] } Shared.UTSName
    (by simp [classes, allStructs]) 1 7
  refine ⟨v, h1, ?_⟩
  have h3 : structToDict { ty := Shared.UTSName, buf := mem { W.empty with heap := [[], List.replicate 7 1 ++ utsMem ++ [5]] } 1 7 Shared.UTSName.size } =
      .ok (.dict [(py!"sysname", .str py!"Linux"), (py!"nodename", .str py!"h"), (py!"release", .str []), (py!"version", .str []),
      (py!"machine", .str []), (py!"domain", .str [])]) := by rfl
  exact Except.ok.inj (h2.symm.trans h3)

/-- C69 on a cgroup with the two processes 7 and 8. -/
example : ∃ v c, ((program Z fs args).at 5).call py!"atoparser" py!"struct_to_dict"
      [groupVal ⟨⟨V2_11.CStat, 0⟩, ⟨.array pid_t 2, 1⟩⟩] [] { W.empty with heap := [[], [7, 0, 0, 0, 8, 0, 0, 0]] } =
        (.ok v, { W.empty with heap := [[], [7, 0, 0, 0, 8, 0, 0, 0]] }) ∧
    toJ v = .dict [(py!"cstat", c), (py!"proclist", .list [.int 7, .int 8])] := by
  obtain ⟨v, h1, h2⟩ := C69_cgroup Z fs args 0 { W.empty with heap := [[], [7, 0, 0, 0, 8, 0, 0, 0]] }
    ⟨⟨V2_11.CStat, 0⟩, ⟨.array pid_t 2, 1⟩⟩ (by simp [classes, allStructs]) 2 rfl
  refine ⟨v, ?_⟩
  unfold CGroup.toDict at h2
  cases hc : structToDict { ty := V2_11.CStat, buf := mem { W.empty with heap := [[], [7, 0, 0, 0, 8, 0, 0, 0]] } 0 0 V2_11.CStat.size } with
  | error e => rw [hc] at h2; cases h2
  | ok c =>
    rw [hc] at h2
    injection h2 with h2
    exact ⟨c, h1, h2.symm⟩

end
end Atop.Src
