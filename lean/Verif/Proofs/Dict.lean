import Verif.Proofs.Bytes
import Verif.Spec.Schema
/-!
# `struct_to_dict` as a total function on well-formed schemas
-/

namespace Atop
open Spec

/-- Name, offset and type of every field, the layout starting at `off`. -/
def Fields.layout : Fields → Nat → List (PyStr × Nat × CType)
  | .nil, _ => []
  | .cons n t r, off => (n, roundUp off t.align, t) :: r.layout (roundUp off t.align + t.size)

/-- Is it an array type? -/
def CType.isArray : CType → Bool
  | .array .. => true
  | _ => false

/-- The limiters of a structure: each names an array field and an integer field whose name has no "future". -/
def limitersOK (fs : Fields) (lims : List (PyStr × PyStr)) : Bool :=
  lims.all fun p =>
    (match fs.lookup p.1 0 with
      | some (_, .array e _) => e != .char
      | _ => false) &&
    (match fs.lookup p.2 0 with
      | some (_, .int _ _) => !isFuture p.2 && !p.2.isEmpty
      | _ => false)

mutual
/-- A field type `struct_to_dict` can convert completely. -/
def CType.good : CType → Bool
  | .int n _ => n == 1 || n == 2 || n == 4 || n == 8
  | .float => true
  | .char => true
  | .array e _ => !e.isArray && e.good
  | .struct _ fs lims => fs.good && decide ((fs.toList.map Prod.fst).Nodup) && limitersOK fs lims
/-- All fields are good. -/
def Fields.good : Fields → Bool
  | .nil => true
  | .cons _ t r => t.good && r.good
end

/-- How many of `cap` entries `entries[:n]` keeps. -/
def keep (n : Int) (cap : Nat) : Nat := if n < 0 then (n + cap).toNat else min n.toNat cap

/-- Value of the integer field `lim`. -/
def intField (all : Fields) (full : Bytes) (lim : PyStr) : Int :=
  match all.lookup lim 0 with
  | some (o, .int w s) => leInt s ((full.drop o).take w)
  | _ => 0

/-- Number of entries shown of an array field. -/
def shownCount (all : Fields) (full : Bytes) (lims : List (PyStr × PyStr)) (name : PyStr) (cap : Nat) : Nat :=
  match lims.lookup name with
  | none => cap
  | some lim => keep (intField all full lim) cap

/-- Is the field shown? -/
def shown (name : PyStr) (t : CType) : Bool := t.isStruct || !isFuture name
where isStruct : CType → Bool
  | .struct .. => true
  | _ => false

mutual
/-- The value shown for an array element. -/
def CType.val : CType → Bytes → JVal
  | .struct _ fs lims, buf => .dict (fs.vals fs lims buf 0)
  | .int _ s, buf => .int (leInt s buf)
  | .float, buf => .float (leNat buf)
  | .char, buf => .bytes buf
  | .array _ _, _ => .other
/-- The entries shown for a list of fields. -/
def Fields.vals : Fields → (all : Fields) → (lims : List (PyStr × PyStr)) → (full : Bytes) → (off : Nat) →
    List (PyStr × JVal)
  | .nil, _, _, _, _ => []
  | .cons name t rest, all, lims, full, off =>
    let o := roundUp off t.align
    let data := (full.drop o).take t.size
    let tail := rest.vals all lims full (o + t.size)
    match t with
    | .struct _ fs l => (name, .dict (fs.vals fs l data 0)) :: tail
    | .array .char _ => if isFuture name then tail else (name, .str (decodeIgnore (cstr data))) :: tail
    | .array e k =>
      if isFuture name then tail
      else (name, .list (((chunks data e.size k).take (shownCount all full lims name k)).map fun b => e.val b)) :: tail
    | .char => if isFuture name then tail else (name, .str (decodeIgnore data)) :: tail
    | .int _ s => if isFuture name then tail else (name, .int (leInt s data)) :: tail
    | .float => if isFuture name then tail else (name, .float (leNat data)) :: tail
end

theorem sliceBound_keep (cap : Nat) (n : Int) : sliceBound cap n = keep n cap := rfl

theorem chunks_length (buf : Bytes) (w n : Nat) : (chunks buf w n).length = n := by simp [chunks]

theorem lookup_mem {α β} [BEq α] [LawfulBEq α] {l : List (α × β)} {a : α} {b : β} (h : l.lookup a = some b) : (a, b) ∈ l := by
  induction l with
  | nil => cases h
  | cons p r ih =>
    obtain ⟨x, y⟩ := p
    rw [List.lookup_cons] at h
    split at h
    · rename_i he; simp at he; cases h; subst he; simp
    · simp [ih h]

theorem limitElems_good {α} {all : Fields} {lims : List (PyStr × PyStr)} (hl : limitersOK all lims = true) (full : Bytes)
    (name : PyStr) (elems : List α) :
    limitElems all full lims name elems = .ok (elems.take (shownCount all full lims name elems.length)) := by
  unfold limitElems shownCount
  cases h : lims.lookup name with
  | none => simp
  | some lim =>
    have hp := List.all_eq_true.mp hl _ (lookup_mem h)
    simp only [Bool.and_eq_true] at hp
    obtain ⟨-, hp⟩ := hp
    unfold intField
    dsimp only
    split at hp
    · rename_i o w s hlook
      simp only [Bool.and_eq_true, Bool.not_eq_true'] at hp
      rw [if_neg (by simp [hp.2])]
      simp only [Fields.getattr, hlook, pyField, pyItem, PyObj.asInt, bind, Except.bind, pure, Except.pure, CType.size]
      rw [pySliceTo, sliceBound_keep]
    · cases hp

theorem mapM_ok {α β} (f : α → β) (l : List α) : l.mapM (m := Except Exc) (fun b => .ok (f b)) = .ok (l.map f) := by
  induction l with
  | nil => rfl
  | cons a r ih => rw [List.mapM_cons, ih]; rfl

mutual
theorem toDictElem_good : ∀ (t : CType), t.good = true → ∀ buf, t.toDictElem buf = .ok (t.val buf)
  | .struct c fs lims, h, buf => by
    simp only [CType.good, Bool.and_eq_true] at h
    rw [CType.toDictElem, toDictFrom_good fs h.1.1 fs lims h.2 buf 0, CType.val]; rfl
  | .int _ _, _, buf => rfl
  | .float, _, buf => rfl
  | .char, _, buf => rfl
  | .array _ _, _, buf => rfl
theorem toDictFrom_good : ∀ (fs : Fields), fs.good = true → ∀ (all : Fields) (lims : List (PyStr × PyStr)),
    limitersOK all lims = true → ∀ (full : Bytes) (off : Nat),
    fs.toDictFrom all lims full off = .ok (fs.vals all lims full off)
  | .nil, _, all, lims, hl, full, off => rfl
  | .cons name t rest, h, all, lims, hl, full, off => by
    rw [Fields.good, Bool.and_eq_true] at h
    obtain ⟨ht, hr⟩ := h
    have ih := toDictFrom_good rest hr all lims hl full
    match t, ht with
    | .struct c fs l, ht =>
      simp only [CType.good, Bool.and_eq_true] at ht
      simp only [Fields.toDictFrom, Fields.vals, ih]
      rw [toDictFrom_good fs ht.1.1 fs l ht.2]; rfl
    | .int _ _, ht => simp only [Fields.toDictFrom, Fields.vals, ih]; split <;> rfl
    | .float, ht => simp only [Fields.toDictFrom, Fields.vals, ih]; split <;> rfl
    | .char, ht => simp only [Fields.toDictFrom, Fields.vals, ih]; split <;> rfl
    | .array .char _, ht => simp only [Fields.toDictFrom, Fields.vals, ih]; split <;> rfl
    | .array (.struct c fs l) k, ht =>
      simp only [CType.good, Bool.and_eq_true] at ht
      simp only [Fields.toDictFrom, Fields.vals, ih]
      split
      · rfl
      · have he : (CType.struct c fs l).good = true := by simpa [CType.good] using ht.2
        have hf : (fun b => (CType.struct c fs l).toDictElem b) = fun b => .ok ((CType.struct c fs l).val b) :=
          funext fun b => toDictElem_good (.struct c fs l) he b
        rw [limitElems_good hl, hf, chunks_length]
        simp only [bind, Except.bind, mapM_ok]; rfl
    | .array (.int w s) k, ht =>
      simp only [Fields.toDictFrom, Fields.vals, ih]
      split
      · rfl
      · have hf : (fun b => (CType.int w s).toDictElem b) = fun b => .ok ((CType.int w s).val b) := rfl
        rw [limitElems_good hl, hf, chunks_length]
        simp only [bind, Except.bind, mapM_ok]; rfl
    | .array .float k, ht =>
      simp only [Fields.toDictFrom, Fields.vals, ih]
      split
      · rfl
      · have hf : (fun b => CType.float.toDictElem b) = fun b => .ok (CType.float.val b) := rfl
        rw [limitElems_good hl, hf, chunks_length]
        simp only [bind, Except.bind, mapM_ok]; rfl
    | .array (.array _ _) k, ht => simp [CType.good, CType.isArray] at ht
end

theorem structToDict_good {c : PyStr} {fs : Fields} {lims : List (PyStr × PyStr)} (h : (CType.struct c fs lims).good = true)
    (buf : Bytes) : structToDict ⟨.struct c fs lims, buf⟩ = .ok (.dict (fs.vals fs lims buf 0)) := by
  simp only [CType.good, Bool.and_eq_true] at h
  show (do return JVal.dict (← fs.toDictFrom fs lims buf 0) : Except Exc JVal) = _
  rw [toDictFrom_good fs h.1.1 fs lims h.2]; rfl

/-- Every structure class: the 123 structures and the 11 headers. -/
abbrev allClasses : List CType := Spec.classes

set_option maxRecDepth 100000 in
theorem allClasses_good : allClasses.all CType.good = true := by decide +kernel

end Atop
