import Verif.Props.Schema
import Verif.Proofs.Ints
/-!
# The converted dictionary, entry by entry
-/

namespace Atop
open Spec

/-- Value of one shown field whose memory is `data`. -/
def fieldVal (all : Fields) (lims : List (PyStr × PyStr)) (full : Bytes) (name : PyStr) (t : CType) (data : Bytes) : JVal :=
  match t with
  | .struct _ fs l => .dict (fs.vals fs l data 0)
  | .array .char _ => .str (decodeIgnore (cstr data))
  | .array e k => .list (((chunks data e.size k).take (shownCount all full lims name k)).map fun b => e.val b)
  | .char => .str (decodeIgnore data)
  | .int _ s => .int (leInt s data)
  | .float => .float (leNat data)

theorem isFuture_eq (n : PyStr) : isFuture n = decide (mentionsFuture n) := by
  rw [Bool.eq_iff_iff, isFuture_iff]; simp

theorem vals_eq (all : Fields) (lims : List (PyStr × PyStr)) (full : Bytes) : ∀ (fs : Fields) (off : Nat),
    fs.vals all lims full off = (fs.layout off).filterMap (fun p =>
      if isShown p.1 p.2.2 = true then some (p.1, fieldVal all lims full p.1 p.2.2 (slot full p.2.1 p.2.2)) else none)
  | .nil, off => rfl
  | .cons n t r, off => by
    have ih := vals_eq all lims full r
    rw [Fields.layout, List.filterMap_cons]
    have hf : isFuture n = decide (mentionsFuture n) := isFuture_eq n
    match t with
    | .struct _ fs l => simp only [Fields.vals, ih, isShown, isStructure, Bool.true_or, if_true, fieldVal, slot]
    | .int w s =>
      simp only [Fields.vals, ih, isShown, isStructure, Bool.false_or, fieldVal, slot, hf]
      by_cases h : mentionsFuture n <;> simp [h]
    | .float =>
      simp only [Fields.vals, ih, isShown, isStructure, Bool.false_or, fieldVal, slot, hf]
      by_cases h : mentionsFuture n <;> simp [h]
    | .char =>
      simp only [Fields.vals, ih, isShown, isStructure, Bool.false_or, fieldVal, slot, hf]
      by_cases h : mentionsFuture n <;> simp [h]
    | .array .char k =>
      simp only [Fields.vals, ih, isShown, isStructure, Bool.false_or, fieldVal, slot, hf]
      by_cases h : mentionsFuture n <;> simp [h]
    | .array (.int w s) k =>
      simp only [Fields.vals, ih, isShown, isStructure, Bool.false_or, fieldVal, slot, hf]
      by_cases h : mentionsFuture n <;> simp [h]
    | .array .float k =>
      simp only [Fields.vals, ih, isShown, isStructure, Bool.false_or, fieldVal, slot, hf]
      by_cases h : mentionsFuture n <;> simp [h]
    | .array (.array e' k') k =>
      simp only [Fields.vals, ih, isShown, isStructure, Bool.false_or, fieldVal, slot, hf]
      by_cases h : mentionsFuture n <;> simp [h]
    | .array (.struct c fs l) k =>
      simp only [Fields.vals, ih, isShown, isStructure, Bool.false_or, fieldVal, slot, hf]
      by_cases h : mentionsFuture n <;> simp [h]

theorem vals_keys (all : Fields) (lims : List (PyStr × PyStr)) (full : Bytes) (fs : Fields) (off : Nat) :
    (fs.vals all lims full off).map Prod.fst = (fs.toList.filter fun p => isShown p.1 p.2).map Prod.fst := by
  rw [vals_eq, ← layout_toList fs off]
  induction fs.layout off with
  | nil => rfl
  | cons p l ih =>
    rw [List.filterMap_cons, List.map_cons, List.filter_cons]
    by_cases h : isShown p.1 p.2.2 = true
    · simp only [h, if_true, List.map_cons, ih]
    · simp only [h, if_false, ih, Bool.false_eq_true]

theorem filter_nodup {F : List (PyStr × CType)} {q : PyStr × CType → Bool} (h : (F.map Prod.fst).Nodup) :
    ((F.filter q).map Prod.fst).Nodup := by
  refine List.Nodup.sublist ?_ h
  exact (List.filter_sublist).map _

theorem vals_lookup {fs : Fields} (hnd : (fs.toList.map Prod.fst).Nodup) (lims : List (PyStr × PyStr)) (full : Bytes)
    {n : PyStr} {o : Nat} {t : CType} (hp : fs.lookup n 0 = some (o, t)) (hs : isShown n t = true) :
    (fs.vals fs lims full 0).lookup n = some (fieldVal fs lims full n t (slot full o t)) := by
  have hm : (n, o, t) ∈ fs.layout 0 := by rw [lookup_layout] at hp; exact lookup_mem hp
  refine lookup_of_mem ?_ ?_
  · rw [vals_keys]; exact filter_nodup hnd
  · rw [vals_eq]
    exact List.mem_filterMap.mpr ⟨_, hm, by simp [hs]⟩

/-- What is needed about a structure class in the proofs. -/
structure Good (t : CType) (c : PyStr) (fs : Fields) (lims : List (PyStr × PyStr)) : Prop where
  eq : t = .struct c fs lims
  fields : fs.good = true
  nodup : (fs.toList.map Prod.fst).Nodup
  lims : limitersOK fs lims = true

theorem good_inv {c fs lims} (h : (CType.struct c fs lims).good = true) : Good (.struct c fs lims) c fs lims := by
  simp only [CType.good, Bool.and_eq_true, decide_eq_true_eq] at h
  exact ⟨rfl, h.1.1, h.1.2, h.2⟩

theorem class_Good {t : CType} (h : t ∈ classes) : ∃ c fs lims, Good t c fs lims := by
  have hg := class_good h
  obtain ⟨c, fs, lims, rfl, -⟩ := class_struct h
  exact ⟨c, fs, lims, good_inv hg⟩

theorem Good.toDict {t c fs lims} (G : Good t c fs lims) (mem : Bytes) :
    structToDict ⟨t, mem⟩ = .ok (.dict (fs.vals fs lims mem 0)) := by
  rw [G.eq]
  exact structToDict_good (by simp only [CType.good, G.fields, G.nodup, G.lims, Bool.and_eq_true, decide_true, and_self]) mem

theorem fgood_mem : ∀ {fs : Fields} (off : Nat), fs.good = true → ∀ p ∈ fs.layout off, p.2.2.good = true
  | .nil, _, _, p, hp => by simp [Fields.layout] at hp
  | .cons n t r, off, h, p, hp => by
    simp only [Fields.good, Bool.and_eq_true] at h
    simp only [Fields.layout, List.mem_cons] at hp
    rcases hp with rfl | hp
    · exact h.1
    · exact fgood_mem _ h.2 p hp

theorem Good.field {t c fs lims} (G : Good t c fs lims) {n : PyStr} {o : Nat} {ft : CType}
    (hp : place t n = some (o, ft)) : (n, o, ft) ∈ fs.layout 0 ∧ ft.good = true ∧ o + ft.size ≤ t.size ∧
      fs.lookup n 0 = some (o, ft) := by
  rw [G.eq] at hp ⊢
  have hl : fs.lookup n 0 = some (o, ft) := hp
  have hm : (n, o, ft) ∈ fs.layout 0 := by rw [lookup_layout] at hl; exact lookup_mem hl
  refine ⟨hm, fgood_mem 0 G.fields _ hm, ?_, hl⟩
  have := ((layout_end fs 0 G.fields).2 _ hm).2.1
  have := (roundUp_spec (fs.endOff 0) fs.align (falign_pos fs)).1
  simp only [CType.size]
  simp only at *
  omega

theorem slot_length {mem : Bytes} {o : Nat} {t : CType} (h : o + t.size ≤ mem.length) : (slot mem o t).length = t.size := by
  unfold slot; exact slice_length h

theorem good_int_pos {w : Nat} {s : Bool} (h : (CType.int w s).good = true) : 0 < w := by
  simp [CType.good] at h; omega

theorem chunk_slot {mem : Bytes} {o k : Nat} {e : CType} {j : Nat} (hj : j < k) :
    chunk (slot mem o (.array e k)) e.size j = slot mem (o + j * e.size) e := by
  unfold chunk slot
  have hle : j * e.size + e.size ≤ k * e.size := by
    have := Nat.mul_le_mul_right e.size (show j + 1 ≤ k from hj)
    rwa [Nat.add_mul, Nat.one_mul] at this
  simp only [CType.size]
  rw [List.drop_take, List.drop_drop, List.take_take, Nat.min_eq_left (by omega)]

theorem entry_inside {o k j L : Nat} {e : CType} (hj : j < k) (h : o + (CType.array e k).size ≤ L) :
    o + j * e.size + e.size ≤ L := by
  have := Nat.mul_le_mul_right e.size (show j + 1 ≤ k from hj)
  rw [Nat.add_mul, Nat.one_mul] at this
  simp only [CType.size] at h
  omega

theorem chunks_map (mem : Bytes) (o k m : Nat) (e : CType) (hm : m ≤ k) (f : Bytes → JVal) :
    ((chunks (slot mem o (.array e k)) e.size k).take m).map f =
      (List.range m).map (fun j => f (slot mem (o + j * e.size) e)) := by
  unfold chunks
  rw [← List.map_take, List.take_range, Nat.min_eq_left hm, List.map_map]
  apply List.map_congr_left
  intro j hj
  simp only [Function.comp]
  rw [chunk_slot (by have := List.mem_range.mp hj; omega)]

theorem shownCount_le (all : Fields) (full : Bytes) (lims : List (PyStr × PyStr)) (n : PyStr) (k : Nat) :
    shownCount all full lims n k ≤ k := by
  unfold shownCount
  split
  · exact Nat.le_refl _
  · unfold keep; split <;> omega

theorem count_exists {t c fs lims} (G : Good t c fs lims) {mem : Bytes} (hl : mem.length = t.size) {n lim : PyStr}
    (hL : lims.lookup n = some lim) :
    ∃ o w s, place t lim = some (o, .int w s) ∧ ¬ mentionsFuture lim ∧ 0 < w ∧
      countIs t mem lim (intField fs mem lim) ∧ intField fs mem lim = leInt s (slot mem o (.int w s)) := by
  have h := List.all_eq_true.mp G.lims _ (lookup_mem hL)
  simp only [Bool.and_eq_true] at h
  obtain ⟨-, h⟩ := h
  split at h
  · rename_i o w s hlook
    simp only [Bool.and_eq_true, Bool.not_eq_true'] at h
    have hp : place t lim = some (o, .int w s) := by rw [G.eq]; exact hlook
    obtain ⟨-, hg, hin, -⟩ := G.field hp
    have hw := good_int_pos hg
    have he : intField fs mem lim = leInt s (slot mem o (.int w s)) := by
      unfold intField; rw [hlook]; rfl
    refine ⟨o, w, s, hp, ?_, hw, ⟨o, w, s, hp, ?_⟩, he⟩
    · rw [← isFuture_iff, h.1]; simp
    · exact (leInt_iff (w := w) (slot_length (t := .int w s) (by omega)) hw s _).mp he.symm
  · cases h

theorem countIs_unique {t : CType} {mem : Bytes} {lim : PyStr} {c c' : Int} (hw : ∀ o w s, place t lim = some (o, .int w s) →
    0 < w ∧ (slot mem o (.int w s)).length = w) (h : countIs t mem lim c) (h' : countIs t mem lim c') : c = c' := by
  obtain ⟨o, w, s, hp, hr, he⟩ := h
  obtain ⟨o', w', s', hp', hr', he'⟩ := h'
  rw [hp] at hp'
  cases hp'
  obtain ⟨h1, h2⟩ := hw _ _ _ hp
  rw [← (leInt_iff h2 h1 s c).mpr ⟨hr, he⟩, ← (leInt_iff h2 h1 s c').mpr ⟨hr', he'⟩]

theorem Good.count_unique {t c fs lims} (G : Good t c fs lims) {mem : Bytes} (hl : mem.length = t.size) {lim : PyStr} {x y : Int}
    (h : countIs t mem lim x) (h' : countIs t mem lim y) : x = y := by
  refine countIs_unique ?_ h h'
  intro o w s hp
  obtain ⟨-, hg, hin, -⟩ := G.field hp
  exact ⟨good_int_pos hg, slot_length (by omega)⟩

theorem shown_iff {t c fs lims} (G : Good t c fs lims) {mem : Bytes} (hl : mem.length = t.size) (n : PyStr) (k j : Nat) :
    entryShown t mem n k j ↔ j < shownCount fs mem lims n k := by
  have hL : limitersOf t = lims := by rw [G.eq]; rfl
  unfold entryShown shownCount
  rw [hL]
  cases h : lims.lookup n with
  | none => exact Iff.rfl
  | some lim =>
    obtain ⟨o, w, s, hp, -, -, hc, -⟩ := count_exists G hl h
    show (∃ x, countIs t mem lim x ∧ j < kept x k) ↔ j < keep (intField fs mem lim) k
    rw [show keep (intField fs mem lim) k = kept (intField fs mem lim) k from (kept_keep _ _).symm]
    constructor
    · rintro ⟨x, hx, hj⟩; rwa [G.count_unique hl hc hx]
    · intro hj; exact ⟨_, hc, hj⟩

end Atop
