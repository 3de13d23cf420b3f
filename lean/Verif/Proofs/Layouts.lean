import Verif.Spec.Node
import Verif.Props.Dict
/-!
# The layout of a class as a `Node`, and what is shown of it
-/

namespace Atop
open Spec

mutual
/-- The node of an array element or nested object of type `t` at `base`. -/
def CType.node : CType → Nat → Node
  | .struct _ fs lims, base => .record (fs.rows fs lims base 0)
  | .int w true, base => .sint base w
  | .int w false, base => .uint base w
  | .float, base => .float base
  | .char, base => .char base
  | .array _ k, base => .text base k
/-- The rows of the fields of a structure at `base`. -/
def Fields.rows : Fields → (all : Fields) → (lims : List (PyStr × PyStr)) → (base off : Nat) → NodeRows
  | .nil, _, _, _, _ => .nil
  | .cons name t rest, all, lims, base, off =>
    let o := roundUp off t.align
    let tail := rest.rows all lims base (o + t.size)
    match t with
    | .struct _ fs l => .cons name (.record (fs.rows fs l (base + o) 0)) tail
    | .array .char k => if isFuture name then tail else .cons name (.text (base + o) k) tail
    | .array e k => if isFuture name then tail else
        .cons name (.list k e.size (match lims.lookup name with
          | none => none
          | some lim => match all.lookup lim 0 with
            | some (lo, .int w s) => some (base + lo, w, s)
            | _ => none) (e.node (base + o))) tail
    | t => if isFuture name then tail else .cons name (t.node (base + o)) tail
end

/-- `n` bytes at `p`, then `w` bytes at `o` of these. -/
theorem sub_sub (mem : Bytes) (p n o w : Nat) (h : o + w ≤ n) :
    (((mem.drop p).take n).drop o).take w = (mem.drop (p + o)).take w := by
  rw [List.drop_take, List.take_take, List.drop_drop, Nat.min_eq_left (by omega)]

theorem storedInt_leInt {mem : Bytes} {o w : Nat} (hw : 0 < w) (h : o + w ≤ mem.length) (s : Bool) :
    StoredInt mem o w s (leInt s ((mem.drop o).take w)) := by
  have hl : ((mem.drop o).take w).length = w := by rw [List.length_take, List.length_drop]; omega
  exact (leInt_iff hl hw s _).mp rfl

theorem storedInt_leNat {mem : Bytes} {o : Nat} (h : o + 4 ≤ mem.length) :
    StoredInt mem o 4 false (leNat ((mem.drop o).take 4) : Nat) := by
  have := storedInt_leInt (w := 4) (by decide) h false
  rwa [leInt_false] at this

theorem node_int {mem : Bytes} {base shift w : Nat} {s : Bool} (hg : (CType.int w s).good = true) (h : base + shift + w ≤ mem.length) :
    ((CType.int w s).node base).Shows mem shift (.int (leInt s ((mem.drop (base + shift)).take w))) := by
  have := storedInt_leInt (good_int_pos hg) h s
  cases s <;> exact ⟨_, rfl, this⟩

theorem node_float {mem : Bytes} {base shift : Nat} (h : base + shift + 4 ≤ mem.length) :
    (CType.float.node base).Shows mem shift (.float (leNat ((mem.drop (base + shift)).take 4))) :=
  ⟨_, rfl, storedInt_leNat h⟩

theorem decodeIgnore_one (x : UInt8) : decodeIgnore [x] = if x.toNat < 128 then [x.toNat] else [] := by
  have : ∀ n : Fin 256, decodeIgnore [UInt8.ofNat n.val] = if n.val < 128 then [n.val] else [] := by decide +kernel
  have h := this ⟨x.toNat, x.toNat_lt⟩
  simpa using h

theorem node_char {mem : Bytes} {base shift : Nat} (h : base + shift + 1 ≤ mem.length) :
    (CType.char.node base).Shows mem shift (.str (decodeIgnore ((mem.drop (base + shift)).take 1))) := by
  have ho : base + shift < mem.length := by omega
  refine ⟨mem[base + shift], List.getElem?_eq_getElem ho, ?_⟩
  rw [List.drop_eq_getElem_cons ho, ← decodeIgnore_one]
  rfl

theorem node_text (mem : Bytes) (base shift k : Nat) :
    (Node.text base k).Shows mem shift (.str (decodeIgnore (cstr ((mem.drop (base + shift)).take k)))) :=
  ⟨_, rfl, by rw [cstr_eq]; exact (decodeIgnore_iff _ _).mp rfl⟩

theorem node_list {mem : Bytes} {base shift o k N : Nat} {e : CType} (entry : Node) {all : Fields} {lims : List (PyStr × PyStr)}
    (hl : limitersOK all lims = true) (hall : ∀ n o t, all.lookup n 0 = some (o, t) → o + t.size ≤ N ∧ t.good = true)
    (hN : base + shift + N ≤ mem.length) (name : PyStr) (ho : o + k * e.size ≤ N)
    (he : ∀ i, i < k → entry.Shows mem (shift + i * e.size) (e.val ((mem.drop (base + o + (shift + i * e.size))).take e.size))) :
    (Node.list k e.size (match lims.lookup name with
          | none => none
          | some lim => match all.lookup lim 0 with
            | some (lo, .int w s) => some (base + lo, w, s)
            | _ => none) entry).Shows mem shift
      (.list (((chunks ((((mem.drop (base + shift)).take N).drop o).take (k * e.size)) e.size k).take
        (shownCount all ((mem.drop (base + shift)).take N) lims name k)).map fun b => e.val b)) := by
  refine ⟨_, rfl, ?_, ?_⟩
  · rw [List.length_map, List.length_take, chunks_length]
    unfold shownCount CountOK
    cases h : lims.lookup name with
    | none => simp
    | some lim =>
      have hp := List.all_eq_true.mp hl _ (lookup_mem h)
      simp only [Bool.and_eq_true] at hp
      obtain ⟨-, hp⟩ := hp
      dsimp only
      unfold intField
      split at hp
      · rename_i o' w s hlook
        obtain ⟨h1, h2⟩ := hall _ _ _ hlook
        rw [hlook]
        dsimp only
        simp only [CType.size] at h1
        rw [sub_sub _ _ _ _ _ h1]
        refine ⟨leInt s ((mem.drop (base + shift + o')).take w), ?_, ?_⟩
        · rw [show base + o' + shift = base + shift + o' by omega]
          exact storedInt_leInt (good_int_pos h2) (by omega) s
        · rw [kept_keep]; unfold keep
          split <;> omega
      · cases hp
  · intro i x hx
    rw [List.getElem?_map, List.getElem?_take] at hx
    split at hx
    · unfold chunks at hx
      rw [List.getElem?_map] at hx
      cases hr : (List.range k)[i]? with
      | none => rw [hr] at hx; cases hx
      | some j =>
        rw [hr] at hx
        obtain ⟨hi, hj⟩ := List.getElem?_eq_some_iff.mp hr
        rw [List.getElem_range] at hj
        subst hj
        rw [List.length_range] at hi
        simp only [Option.map_some, Option.some.injEq] at hx
        subst hx
        have hle : i * e.size + e.size ≤ k * e.size := by
          have := Nat.mul_le_mul_right e.size (show i + 1 ≤ k from hi)
          rwa [Nat.add_mul, Nat.one_mul] at this
        unfold chunk
        rw [sub_sub _ _ _ _ _ ho, sub_sub _ _ _ _ _ hle]
        have := he i hi
        rwa [show base + o + (shift + i * e.size) = base + shift + o + i * e.size by omega] at this
    · cases hx

mutual
theorem node_type : ∀ (t : CType), t.good = true → t ≠ .char → t.isArray = false → ∀ (mem : Bytes) (base shift : Nat), base + shift + t.size ≤ mem.length →
    (t.node base).Shows mem shift (t.val ((mem.drop (base + shift)).take t.size))
  | .struct c fs lims, hg, _, _, mem, base, shift, h => by
    simp only [CType.good, Bool.and_eq_true, decide_eq_true_eq] at hg
    rw [CType.node, CType.val]
    have hend : fs.endOff 0 ≤ (CType.struct c fs lims).size := by
      rw [CType.size]
      have := roundUp_spec (fs.endOff 0) fs.align (falign_pos fs)
      omega
    refine ⟨_, rfl, node_fields fs hg.1.1 fs lims hg.2 _ ?_ mem base shift h 0 hend⟩
    intro n o t hl
    have hm : (n, o, t) ∈ fs.layout 0 := by rw [lookup_layout] at hl; exact lookup_mem hl
    have := (layout_end fs 0 hg.1.1).2 _ hm
    dsimp only at this
    exact ⟨by omega, fgood_mem 0 hg.1.1 _ hm⟩
  | .int w s, hg, _, _, mem, base, shift, h => node_int hg h
  | .float, _, _, _, mem, base, shift, h => node_float h
  | .char, _, hc, _, mem, base, shift, h => absurd rfl hc
  | .array _ _, _, _, ha, mem, base, shift, h => by cases ha
theorem node_fields : ∀ (fs : Fields), fs.good = true → ∀ (all : Fields) (lims : List (PyStr × PyStr)), limitersOK all lims = true →
    ∀ (N : Nat), (∀ n o t, all.lookup n 0 = some (o, t) → o + t.size ≤ N ∧ t.good = true) →
    ∀ (mem : Bytes) (base shift : Nat), base + shift + N ≤ mem.length → ∀ off, fs.endOff off ≤ N →
    (fs.rows all lims base off).Shows mem shift (fs.vals all lims ((mem.drop (base + shift)).take N) off)
  | .nil, _, all, lims, hl, N, hall, mem, base, shift, hN, off, hoff => rfl
  | .cons name t rest, hg, all, lims, hl, N, hall, mem, base, shift, hN, off, hoff => by
    simp only [Fields.good, Bool.and_eq_true] at hg
    rw [Fields.endOff] at hoff
    have hle := (layout_end rest (roundUp off t.align + t.size) hg.2).1
    have tail := node_fields rest hg.2 all lims hl N hall mem base shift hN (roundUp off t.align + t.size) hoff
    have hsub : roundUp off t.align + t.size ≤ N := by omega
    have hslice := sub_sub mem (base + shift) N _ _ hsub
    have comm : base + roundUp off t.align + shift = base + shift + roundUp off t.align := by omega
    match t, hg.1 with
    | .struct c fs l, ht =>
      have := node_type (.struct c fs l) ht (by simp) rfl mem (base + roundUp off (CType.struct c fs l).align) shift (by omega)
      simp only [Fields.rows, Fields.vals]
      refine ⟨_, _, rfl, ?_, tail⟩
      rw [hslice, ← comm]
      exact this
    | .int w s, ht =>
      simp only [Fields.rows, Fields.vals]
      split
      · exact tail
      · refine ⟨_, _, rfl, ?_, tail⟩
        rw [hslice, ← comm]
        simp only [CType.size] at hsub
        exact node_int ht (by omega)
    | .float, ht =>
      simp only [Fields.rows, Fields.vals]
      split
      · exact tail
      · refine ⟨_, _, rfl, ?_, tail⟩
        rw [hslice, ← comm]
        simp only [CType.size] at hsub
        exact node_float (by omega)
    | .char, ht =>
      simp only [Fields.rows, Fields.vals]
      split
      · exact tail
      · refine ⟨_, _, rfl, ?_, tail⟩
        rw [hslice, ← comm]
        simp only [CType.size] at hsub
        exact node_char (by omega)
    | .array .char k, ht =>
      simp only [Fields.rows, Fields.vals]
      split
      · exact tail
      · refine ⟨_, _, rfl, ?_, tail⟩
        rw [hslice, ← comm]
        have : (CType.array .char k).size = k := by simp [CType.size]
        rw [this]
        exact node_text _ _ _ _
    | .array (.struct c fs l) k, ht =>
      simp only [CType.good, Bool.and_eq_true] at ht
      have he : (CType.struct c fs l).good = true := by simpa [CType.good] using ht.2
      simp only [Fields.rows, Fields.vals]
      split
      · exact tail
      · refine ⟨_, _, rfl, node_list _ hl hall hN name (by simpa only [CType.size] using hsub) ?_, tail⟩
        intro i hi
        refine node_type (.struct c fs l) he (by simp) rfl mem _ _ ?_
        have hle : i * (CType.struct c fs l).size + (CType.struct c fs l).size ≤ k * (CType.struct c fs l).size := by
          have := Nat.mul_le_mul_right (CType.struct c fs l).size (show i + 1 ≤ k from hi)
          rwa [Nat.add_mul, Nat.one_mul] at this
        rw [show (CType.array (.struct c fs l) k).size = k * (CType.struct c fs l).size by rw [CType.size]] at hsub
        omega
    | .array (.int w s) k, ht =>
      simp only [CType.good, Bool.and_eq_true] at ht
      have he : (CType.int w s).good = true := by simpa [CType.good] using ht.2
      simp only [Fields.rows, Fields.vals]
      split
      · exact tail
      · refine ⟨_, _, rfl, node_list _ hl hall hN name (by simpa only [CType.size] using hsub) ?_, tail⟩
        intro i hi
        refine node_int he ?_
        have hle : i * w + w ≤ k * w := by
          have := Nat.mul_le_mul_right w (show i + 1 ≤ k from hi)
          rwa [Nat.add_mul, Nat.one_mul] at this
        simp only [CType.size] at hsub ⊢
        omega
    | .array .float k, ht =>
      simp only [Fields.rows, Fields.vals]
      split
      · exact tail
      · refine ⟨_, _, rfl, node_list _ hl hall hN name (by simpa only [CType.size] using hsub) ?_, tail⟩
        intro i hi
        refine node_float ?_
        simp only [CType.size] at hsub ⊢
        omega
    | .array (.array _ _) k, ht => simp [CType.good, CType.isArray] at ht
end

end Atop
