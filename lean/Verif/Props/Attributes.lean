import Verif.Props.Reader
/-!
# C38: every attribute of a completely filled structure can be read

`Props/Iteration.lean` shows that what is yielded has exactly the size of its type.  Here: on such an instance every chain
of declared attribute names and indices inside the lists is answered, from bytes that are all there.
-/
namespace Atop
namespace Spec

/-- One step into a value: an attribute of a structure, or an entry of a list. -/
inductive Hop
  | attr (n : PyStr)
  | item (i : Nat)

/-- Declared names and indices inside the lists lead from a value of type `t` to the value of type `u` stored `o` bytes
further on. -/
inductive Leads : CType → List Hop → Nat → CType → Prop
  | here (t) : Leads t [] 0 t
  | attr {t n o u p o' v} : place t n = some (o, u) → Leads u p o' v → Leads t (.attr n :: p) (o + o') v
  | item {e k i p o' v} : e ≠ .char → i < k → Leads e p o' v → Leads (.array e k) (.item i :: p) (i * e.size + o') v

/-- `x.name`, `x[i]`, ... in the order written, gives `y`. -/
inductive Reaches : PyObj → List Hop → PyObj → Prop
  | here (x) : Reaches x [] x
  | attr {x n y p z} : x.attr n = .ok y → Reaches y p z → Reaches x (.attr n :: p) z
  | item {x l i y p z} : getItems x [] = .ok l → l[i]? = some y → Reaches y p z → Reaches x (.item i :: p) z

end Spec
open Spec

/-- What a value of type `t` at these bytes looks like, read as an attribute (`true`) or as an entry. -/
def seenAs (t : CType) (b : Bytes) (field : Bool) : PyObj := if field then pyField t b else pyItem t b

theorem seen_struct {c fs l} (b : Bytes) (f : Bool) : seenAs (.struct c fs l) b f = .struct c fs l b := by
  cases f <;> rfl

theorem seen_array {e k} (he : e ≠ .char) (b : Bytes) (f : Bool) : seenAs (.array e k) b f = .array e k b := by
  cases f
  · rfl
  · cases e <;> first | rfl | exact absurd rfl he

theorem sub_slice (mem : Bytes) {a n o m : Nat} (h : o + m ≤ n) :
    (((mem.drop a).take n).drop o).take m = (mem.drop (a + o)).take m := by
  rw [List.drop_take, List.drop_drop, List.take_take, Nat.min_eq_left (by omega)]

theorem reaches_leads {t u : CType} {p : List Hop} {o : Nat} (h : Leads t p o u) : t.good = true → ∀ (mem : Bytes) (a : Nat)
    (f : Bool), o + u.size ≤ t.size ∧ u.good = true ∧ (t.size ≤ mem.length - a → ∃ f',
      Reaches (seenAs t ((mem.drop a).take t.size) f) p (seenAs u ((mem.drop (a + o)).take u.size) f')) := by
  induction h with
  | here t => exact fun hg mem a f => ⟨by omega, hg, fun _ => ⟨f, .here _⟩⟩
  | @attr t n o u p o' v hp _ ih =>
    intro hg mem a f
    cases t with
    | struct c fs l =>
      have G := good_inv hg
      obtain ⟨-, g2, g3, g4⟩ := G.field hp
      obtain ⟨i1, i2, i3⟩ := ih g2 mem (a + o) true
      refine ⟨by omega, i2, fun hl => ?_⟩
      obtain ⟨f', hr⟩ := i3 (by omega)
      refine ⟨f', ?_⟩
      rw [seen_struct, ← Nat.add_assoc]
      refine .attr (y := seenAs u ((mem.drop (a + o)).take u.size) true) ?_ hr
      simp only [PyObj.attr, Fields.getattr, g4, seenAs, if_true]
      rw [sub_slice mem g3]
    | _ => simp [place] at hp
  | @item e k i p o' v he hi _ ih =>
    intro hg mem a f
    have hge : e.good = true := by simp only [CType.good, Bool.and_eq_true] at hg; exact hg.2
    have hin := entry_inside (o := 0) (e := e) (L := (CType.array e k).size) hi (by omega)
    obtain ⟨i1, i2, i3⟩ := ih hge mem (a + i * e.size) false
    refine ⟨by omega, i2, fun hl => ?_⟩
    obtain ⟨f', hr⟩ := i3 (by omega)
    refine ⟨f', ?_⟩
    rw [seen_array he, ← Nat.add_assoc]
    refine .item (l := (chunks ((mem.drop a).take (CType.array e k).size) e.size k).map (pyItem e)) rfl ?_ hr
    simp only [chunks, List.map_map, List.getElem?_map, List.getElem?_range hi, Option.map_some, Function.comp, chunk,
      seenAs, Bool.false_eq_true, if_false]
    rw [sub_slice mem (by omega)]

/-- **C38** On an instance of exactly the size of its type, every chain of declared attribute names and indices inside the
lists gives a value, read from the bytes at the place C gives it; all these bytes lie inside the instance. -/
theorem C38_attributes {t : CType} (ht : t ∈ classes) {mem : Bytes} (full : mem.length = t.size) {p : List Hop} {o : Nat}
    {u : CType} (h : Leads t p o u) : ∃ y, Reaches (Inst.obj ⟨t, mem⟩) p y ∧ o + u.size ≤ mem.length ∧
      (y = pyItem u ((mem.drop o).take u.size) ∨ y = pyField u ((mem.drop o).take u.size)) := by
  obtain ⟨h1, -, h2⟩ := reaches_leads h (class_good ht) mem 0 false
  obtain ⟨f, hr⟩ := h2 (by omega)
  refine ⟨seenAs u ((mem.drop o).take u.size) f, ?_, by omega, ?_⟩
  · rw [Nat.zero_add] at hr
    have e : (mem.drop 0).take t.size = mem := by rw [List.drop_zero, ← full, List.take_length]
    rw [e] at hr
    exact hr
  · cases f
    · exact .inl rfl
    · exact .inr rfl

/-- **C38** ... so of everything yielded: for any content, the record, the system statistics, every task and every cgroup
answer every such chain. -/
theorem C38_readable (Z : Zlib) (rot : Bool) (max : Int) {s0 s1 : Stream} {h : Header}
    (hg : getHeader true s0 = (.ok h, s1)) (s : Stream) (x : Sample)
    (hx : x ∈ (generateStatistics Z (some h) rot max s).1) (i : Inst)
    (hi : i = x.record ∨ i = x.sstat ∨ i ∈ x.tstats ∨ ∃ g ∈ x.cgroups, i = g.cstat)
    {p : List Hop} {o : Nat} {u : CType} (hl : Leads i.ty p o u) :
    ∃ y, Reaches i.obj p y ∧ o + u.size ≤ i.buf.length ∧
      (y = pyItem u ((i.buf.drop o).take u.size) ∨ y = pyField u ((i.buf.drop o).take u.size)) := by
  obtain ⟨a, b, c, d⟩ := C38_completely_filled Z rot max hg s x hx
  have C := convertible rot max hg s x hx
  have : i.ty ∈ classes ∧ i.buf.length = i.ty.size := by
    rcases hi with rfl | rfl | hi | ⟨g, hgm, rfl⟩
    · exact ⟨C.record, by rw [a.2, a.1]⟩
    · exact ⟨C.sstat, by rw [b.2, b.1]⟩
    · exact ⟨C.tstats i hi, by rw [(c i hi).2, (c i hi).1]⟩
    · obtain ⟨t, -, e, f, -⟩ := d g hgm
      exact ⟨(C.cgroups g hgm).1, by rw [f, e]⟩
  exact C38_attributes this.1 this.2 hl

/-! Non-vacuity: the idle time of the third core of a 2.12 sample. -/
example : ∃ o, Leads V2_12.SStat [.attr py!"cpu", .attr py!"cpu", .item 2, .attr py!"itime"] o (.int 8 true) := by
  have h1 : place V2_12.SStat py!"cpu" = some (0, V2_12.CPUStat) := by decide +kernel
  have h2 : ∃ k, 2 < k ∧ place V2_12.CPUStat py!"cpu" = some (248, .array V2_12.PerCPU k) := ⟨2048, by decide +kernel⟩
  have h3 : ∃ o, place V2_12.PerCPU py!"itime" = some (o, .int 8 true) := ⟨32, by decide +kernel⟩
  obtain ⟨k, hk, h2⟩ := h2
  obtain ⟨o, h3⟩ := h3
  exact ⟨_, .attr h1 (.attr h2 (.item (by decide +kernel) hk (.attr h3 (.here _))))⟩
end Atop
