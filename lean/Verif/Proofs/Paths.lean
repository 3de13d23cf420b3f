import Verif.Proofs.DictSpec
import Verif.Proofs.Utf8
import Verif.Spec.Parseables
/-!
# Attribute paths of the parsers resolved to literal offsets
-/

namespace Atop
open Spec

/-- Offset and type reached by `o.a.b.c`. -/
def resolve : CType → List PyStr → Option (Nat × CType)
  | t, [] => some (0, t)
  | t, n :: ns =>
    match place t n with
    | none => none
    | some (o, ft) =>
      match resolve ft ns with
      | none => none
      | some (o', ft') => some (o + o', ft')

theorem place_struct {t : CType} {n : PyStr} {p} (h : place t n = some p) : ∃ c fs l, t = .struct c fs l ∧ fs.lookup n 0 = some p := by
  cases t with
  | struct c fs l => exact ⟨c, fs, l, rfl, h⟩
  | _ => simp [place] at h

theorem resolve_cons_struct {t : CType} {n : PyStr} {ns : List PyStr} {p} (h : resolve t (n :: ns) = some p) :
    ∃ c fs l, t = .struct c fs l := by
  rw [resolve] at h
  cases hp : place t n with
  | none => rw [hp] at h; simp at h
  | some q => obtain ⟨c, fs, l, ht, -⟩ := place_struct hp; exact ⟨c, fs, l, ht⟩

/-- A field that is not a text: `pyField` and `pyItem` agree. -/
theorem pyField_struct (c : PyStr) (fs : Fields) (l) (b : Bytes) : pyField (.struct c fs l) b = pyItem (.struct c fs l) b := rfl

theorem size_le_of_resolve : ∀ (ns : List PyStr) {t ft : CType} {o : Nat}, t.good = true → resolve t ns = some (o, ft) →
    o + ft.size ≤ t.size ∧ ft.good = true
  | [], t, ft, o, hg, h => by simp [resolve] at h; obtain ⟨rfl, rfl⟩ := h; exact ⟨by omega, hg⟩
  | n :: ns, t, ft, o, hg, h => by
    rw [resolve] at h
    cases hp : place t n with
    | none => rw [hp] at h; simp at h
    | some q =>
      obtain ⟨o1, f1⟩ := q
      rw [hp] at h
      dsimp only at h
      cases hr : resolve f1 ns with
      | none => rw [hr] at h; simp at h
      | some q2 =>
        obtain ⟨o2, f2⟩ := q2
        rw [hr] at h
        simp at h
        obtain ⟨rfl, rfl⟩ := h
        obtain ⟨c, fs, l, rfl, -⟩ := place_struct hp
        obtain ⟨-, hg1, hin, -⟩ := (good_inv hg).field hp
        obtain ⟨h2, hg2⟩ := size_le_of_resolve ns hg1 hr
        exact ⟨by omega, hg2⟩

theorem path_resolve : ∀ (ns : List PyStr) {t ft : CType} {o : Nat} (mem : Bytes), t.good = true → ns ≠ [] →
    resolve t ns = some (o, ft) → (pyItem t mem).path ns = .ok (pyField ft (slot mem o ft))
  | [], _, _, _, _, _, h0, _ => absurd rfl h0
  | n :: ns, t, ft, o, mem, hg, _, h => by
    rw [resolve] at h
    cases hp : place t n with
    | none => rw [hp] at h; simp at h
    | some q =>
      obtain ⟨o1, f1⟩ := q
      rw [hp] at h
      dsimp only at h
      cases hr : resolve f1 ns with
      | none => rw [hr] at h; simp at h
      | some q2 =>
        obtain ⟨o2, f2⟩ := q2
        rw [hr] at h
        simp at h
        obtain ⟨rfl, rfl⟩ := h
        obtain ⟨c, fs, l, rfl, hl⟩ := place_struct hp
        obtain ⟨-, hg1, hin, -⟩ := (good_inv hg).field hp
        have ha : (pyItem (.struct c fs l) mem).attr n = .ok (pyField f1 (slot mem o1 f1)) := by
          simp [pyItem, PyObj.attr, Fields.getattr, hl, slot]
        have hstep : (pyItem (.struct c fs l) mem).path (n :: ns) = (pyField f1 (slot mem o1 f1)).path ns := by
          rw [PyObj.path, ha]; rfl
        rw [hstep]
        cases ns with
        | nil => simp [resolve] at hr; obtain ⟨rfl, rfl⟩ := hr; rfl
        | cons m ms =>
          obtain ⟨c1, fs1, l1, rfl⟩ := resolve_cons_struct hr
          rw [pyField_struct, path_resolve (m :: ms) (slot mem o1 _) hg1 (by simp) hr]
          have hs := (size_le_of_resolve _ hg1 hr).1
          congr 2
          unfold slot
          rw [List.drop_take, List.drop_drop, List.take_take, Nat.min_eq_left (by omega)]

/-- The layout check for one attribute path, evaluated by the kernel. -/
structure At (t : CType) (p : List PyStr) (o : Nat) (ft : CType) : Prop where
  good : t.good = true
  ne : p ≠ []
  res : resolve t p = some (o, ft)

theorem At.path {t p o ft} (A : At t p o ft) (mem : Bytes) : (pyItem t mem).path p = .ok (pyField ft (slot mem o ft)) :=
  path_resolve p mem A.good A.ne A.res

theorem At.size {t p o ft} (A : At t p o ft) : o + ft.size ≤ t.size := (size_le_of_resolve p A.good A.res).1

theorem At.getInt {t p o w s} (A : At t p o (.int w s)) (mem : Bytes) :
    getInt (pyItem t mem) p = .ok (leInt s ((mem.drop o).take w)) := by
  unfold Atop.getInt; rw [A.path]; rfl

theorem At.get {t p o ft} (A : At t p o ft) (mem : Bytes) :
    get (pyItem t mem) p = .ok (pyField ft (slot mem o ft)).toJ := by
  unfold Atop.get; rw [A.path]; rfl

theorem leInt_i64 {mem : Bytes} {o : Nat} (h : o + 8 ≤ mem.length) : leInt true ((mem.drop o).take 8) = i64 mem o := by
  rw [leInt_true _ 8 (slice_length h) (by omega), leNat_u64]; rfl

theorem leInt_i32 {mem : Bytes} {o : Nat} (h : o + 4 ≤ mem.length) : leInt true ((mem.drop o).take 4) = i32 mem o := by
  rw [leInt_true _ 4 (slice_length h) (by omega), leNat_u32]; rfl

section
variable {t : CType} {p : List PyStr} {o : Nat} {mem : Bytes}

theorem At.i64 (A : At t p o c_long) (hl : mem.length = t.size) : Atop.getInt (pyItem t mem) p = .ok (Spec.i64 mem o) := by
  rw [A.getInt, leInt_i64]; have := A.size; simp only [CType.size] at this; omega

theorem At.gi64 (A : At t p o c_long) (hl : mem.length = t.size) : Atop.get (pyItem t mem) p = .ok (.int (Spec.i64 mem o)) := by
  rw [A.get]
  show Except.ok (JVal.int (leInt true ((mem.drop o).take 8))) = _
  rw [leInt_i64]; have := A.size; simp only [CType.size] at this; omega

theorem At.i32 (A : At t p o c_int) (hl : mem.length = t.size) : Atop.getInt (pyItem t mem) p = .ok (Spec.i32 mem o) := by
  rw [A.getInt, leInt_i32]; have := A.size; simp only [CType.size] at this; omega

theorem At.gi32 (A : At t p o c_int) (hl : mem.length = t.size) : Atop.get (pyItem t mem) p = .ok (.int (Spec.i32 mem o)) := by
  rw [A.get]
  show Except.ok (JVal.int (leInt true ((mem.drop o).take 4))) = _
  rw [leInt_i32]; have := A.size; simp only [CType.size] at this; omega

theorem At.gu32 (A : At t p o c_uint) : Atop.get (pyItem t mem) p = .ok (.int (Spec.u32 mem o)) := by
  rw [A.get]
  show Except.ok (JVal.int (leInt false ((mem.drop o).take 4))) = _
  rw [leInt_false, leNat_u32]

theorem At.gu16 (A : At t p o c_ushort) : Atop.get (pyItem t mem) p = .ok (.int (Spec.u16 mem o)) := by
  rw [A.get]
  show Except.ok (JVal.int (leInt false ((mem.drop o).take 2))) = _
  rw [leInt_false, leNat_u16]

theorem At.gf32 (A : At t p o c_float) : Atop.get (pyItem t mem) p = .ok (.float (Spec.u32 mem o)) := by
  rw [A.get]
  show Except.ok (JVal.float (leNat ((mem.drop o).take 4))) = _
  rw [leNat_u32]

theorem At.bytes {w : Nat} (A : At t p o (.array .char w)) : getBytes (pyItem t mem) p = .ok (field mem o w) := by
  unfold getBytes; rw [A.path]
  show Except.ok (cstr ((mem.drop o).take (CType.size (.array .char w)))) = _
  rw [cstr_eq]; simp only [CType.size, Nat.mul_one]; rfl

theorem At.byte (A : At t p o .char) : getBytes (pyItem t mem) p = .ok ((mem.drop o).take 1) := by
  unfold getBytes; rw [A.path]; rfl

theorem At.items {e : CType} {n : Nat} (A : At t p o (.array e n)) (he : e ≠ .char) :
    getItems (pyItem t mem) p = .ok ((List.range n).map fun i => pyItem e (slot mem (o + i * e.size) e)) := by
  unfold getItems; rw [A.path]
  have hf : pyField (.array e n) (slot mem o (.array e n)) = .array e n (slot mem o (.array e n)) := by
    unfold pyField
    split
    · rename_i h; cases h; exact absurd rfl he
    · rfl
  rw [hf]
  show Except.ok ((chunks (slot mem o (.array e n)) e.size n).map (pyItem e)) = _
  unfold chunks
  rw [List.map_map]
  congr 1
  apply List.map_congr_left
  intro i hi
  simp only [Function.comp]
  rw [chunk_slot (List.mem_range.mp hi)]

end

/-! ## Rows -/

theorem row_nil : row [] = .ok [] := rfl

theorem row_ok {k : PyStr} {e : Except Exc JVal} {v : JVal} {l vs} (he : e = .ok v) (hl : row l = .ok vs) :
    row ((k, e) :: l) = .ok ((k, v) :: vs) := by
  rw [row, he, hl]; rfl

theorem row_err {k : PyStr} {e : Except Exc JVal} {x : Exc} {l} (he : e = .error x) : row ((k, e) :: l) = .error x := by
  rw [row, he]; rfl

theorem row_skip {k : PyStr} {e : Except Exc JVal} {v : JVal} {l} {x : Exc} (he : e = .ok v) (hl : row l = .error x) :
    row ((k, e) :: l) = .error x := by
  rw [row, he, hl]; rfl

end Atop
