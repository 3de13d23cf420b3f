import Verif.Proofs.Layout
/-!
# Reading fields at offsets, reading streams
-/

namespace Atop
open Spec

theorem leNat_step (b : Bytes) (o n : Nat) :
    leNat ((b.drop o).take (n + 1)) = u8 b o + 256 * leNat ((b.drop (o + 1)).take n) := by
  unfold u8
  by_cases h : o < b.length
  · rw [List.drop_eq_getElem_cons h, List.take_succ_cons, leNat, List.getD_eq_getElem?_getD,
      List.getElem?_eq_getElem h]
    rfl
  · have h' : b.length ≤ o := by omega
    rw [List.drop_eq_nil_of_le h', List.drop_eq_nil_of_le (by omega : b.length ≤ o + 1),
      List.getD_eq_getElem?_getD, List.getElem?_eq_none h']
    simp [leNat]

theorem leNat_u8 (b : Bytes) (o : Nat) : leNat ((b.drop o).take 1) = u8 b o := by
  rw [leNat_step]; simp [leNat]

theorem leNat_u16 (b : Bytes) (o : Nat) : leNat ((b.drop o).take 2) = u16 b o := by
  rw [leNat_step, leNat_u8]; rfl

theorem leNat_u32 (b : Bytes) (o : Nat) : leNat ((b.drop o).take 4) = u32 b o := by
  rw [leNat_step, leNat_step, leNat_u16]; simp only [u32, u16, Nat.add_assoc, Nat.reduceAdd]; omega

theorem leNat_u64 (b : Bytes) (o : Nat) : leNat ((b.drop o).take 8) = u64 b o := by
  rw [leNat_step, leNat_step, leNat_step, leNat_step, leNat_u32]; simp only [u64, u32, u16, Nat.add_assoc, Nat.reduceAdd]; omega

theorem leNat_lt (b : Bytes) : leNat b < 256 ^ b.length := by
  induction b with
  | nil => simp [leNat]
  | cons x r ih =>
    have hx : x.toNat < 256 := x.toNat_lt
    simp only [leNat, List.length_cons, Nat.pow_succ]
    omega

theorem leInt_false (b : Bytes) : leInt false b = (leNat b : Int) := by simp [leInt]

theorem leInt_true (b : Bytes) (w : Nat) (hb : b.length = w) (hw : 0 < w) :
    leInt true b = signed (8 * w) (leNat b) := by
  subst hb
  unfold leInt signed
  by_cases h : leNat b < 2 ^ (8 * b.length - 1)
  · rw [if_pos h, if_neg]; simp; omega
  · rw [if_neg h, if_pos]; simp; omega

theorem slice_length {b : Bytes} {o n : Nat} (h : o + n ≤ b.length) : ((b.drop o).take n).length = n := by
  rw [List.length_take, List.length_drop]; omega

/-! ## Attributes -/

theorem attr_of_look {t : CType} {n : PyStr} {off : Nat} {u : CType} (h : t.look n = some (off, u)) (buf : Bytes) :
    (Inst.mk t buf).attr n = .ok (pyField u ((buf.drop off).take u.size)) := by
  cases t with
  | struct c fs l =>
    have h' : fs.lookup n 0 = some (off, u) := h
    simp [Inst.attr, Inst.obj, pyItem, PyObj.attr, Fields.getattr, h']
  | _ => simp [CType.look] at h

theorem attr_none {c : PyStr} {fs : Fields} {l} {n : PyStr} (h : fs.lookup n 0 = none) (buf : Bytes) :
    (Inst.mk (.struct c fs l) buf).attr n = .error .attributeError := by
  simp [Inst.attr, Inst.obj, pyItem, PyObj.attr, Fields.getattr, h]

theorem intAttr_none {c : PyStr} {fs : Fields} {l} {n : PyStr} (h : fs.lookup n 0 = none) (buf : Bytes) :
    (Inst.mk (.struct c fs l) buf).intAttr n = .error .attributeError := by
  unfold Inst.intAttr; rw [attr_none h]; rfl

theorem intAttr_int {t : CType} {n : PyStr} {off w : Nat} {s : Bool} (h : t.look n = some (off, .int w s)) (buf : Bytes) :
    (Inst.mk t buf).intAttr n = .ok (leInt s ((buf.drop off).take w)) := by
  unfold Inst.intAttr; rw [attr_of_look h]; simp [pyField, pyItem, CType.size]; rfl

theorem intAttr_u16 {t : CType} {n : PyStr} {off : Nat} (h : t.look n = some (off, c_ushort)) (buf : Bytes) :
    (Inst.mk t buf).intAttr n = .ok (u16 buf off : Int) := by
  rw [intAttr_int h, leInt_false, leNat_u16]

theorem intAttr_u32 {t : CType} {n : PyStr} {off : Nat} (h : t.look n = some (off, c_uint)) (buf : Bytes) :
    (Inst.mk t buf).intAttr n = .ok (u32 buf off : Int) := by
  rw [intAttr_int h, leInt_false, leNat_u32]

theorem intAttr_i32 {t : CType} {n : PyStr} {off : Nat} (h : t.look n = some (off, c_int)) (buf : Bytes)
    (hl : off + 4 ≤ buf.length) :
    (Inst.mk t buf).intAttr n = .ok (i32 buf off) := by
  rw [intAttr_int h, leInt_true _ 4 (slice_length hl) (by omega), leNat_u32]; rfl

/-! ## Zero padding -/

theorem u8_append_zeros (b : Bytes) (n i : Nat) : u8 (b ++ List.replicate n 0) i = u8 b i := by
  unfold u8
  simp only [List.getD_eq_getElem?_getD]
  congr 1
  by_cases h : i < b.length
  · rw [List.getElem?_append_left h]
  · rw [List.getElem?_append_right (by omega), List.getElem?_eq_none (by omega : b.length ≤ i),
      List.getElem?_replicate]
    split <;> rfl

theorem u16_append_zeros (b : Bytes) (n i : Nat) : u16 (b ++ List.replicate n 0) i = u16 b i := by
  unfold u16; rw [u8_append_zeros, u8_append_zeros]

theorem u32_append_zeros (b : Bytes) (n i : Nat) : u32 (b ++ List.replicate n 0) i = u32 b i := by
  unfold u32; rw [u16_append_zeros, u16_append_zeros]

theorem u8_append_left (a b : Bytes) (i : Nat) (h : i < a.length) : u8 (a ++ b) i = u8 a i := by
  unfold u8; simp only [List.getD_eq_getElem?_getD]; rw [List.getElem?_append_left h]

theorem u16_append_left (a b : Bytes) (i : Nat) (h : i + 2 ≤ a.length) : u16 (a ++ b) i = u16 a i := by
  unfold u16; rw [u8_append_left _ _ _ (by omega), u8_append_left _ _ _ (by omega)]

theorem u32_append_left (a b : Bytes) (i : Nat) (h : i + 4 ≤ a.length) : u32 (a ++ b) i = u32 a i := by
  unfold u32; rw [u16_append_left _ _ _ (by omega), u16_append_left _ _ _ (by omega)]

theorem u8_take (b : Bytes) (n i : Nat) (h : i < n) : u8 (b.take n) i = u8 b i := by
  unfold u8; simp only [List.getD_eq_getElem?_getD, List.getElem?_take, h, if_true]

theorem u16_take (b : Bytes) (n i : Nat) (h : i + 2 ≤ n) : u16 (b.take n) i = u16 b i := by
  unfold u16; rw [u8_take _ _ _ (by omega), u8_take _ _ _ (by omega)]

theorem u32_take (b : Bytes) (n i : Nat) (h : i + 4 ≤ n) : u32 (b.take n) i = u32 b i := by
  unfold u32; rw [u16_take _ _ _ (by omega), u16_take _ _ _ (by omega)]

theorem u8_lt (b : Bytes) (i : Nat) : u8 b i < 256 := (b.getD i 0).toNat_lt

theorem u16_lt (b : Bytes) (i : Nat) : u16 b i < 65536 := by
  have := u8_lt b i; have := u8_lt b (i + 1); unfold u16; omega

theorem u32_lt (b : Bytes) (i : Nat) : u32 b i < 4294967296 := by
  have := u16_lt b i; have := u16_lt b (i + 2); unfold u32; omega

theorem u64_lt (b : Bytes) (i : Nat) : u64 b i < 18446744073709551616 := by
  have := u32_lt b i; have := u32_lt b (i + 4); unfold u64; omega

theorem u8_nil (i : Nat) : u8 [] i = 0 := by simp [u8]
theorem u16_nil (i : Nat) : u16 [] i = 0 := by simp [u16, u8_nil]
theorem u32_nil (i : Nat) : u32 [] i = 0 := by simp [u32, u16_nil]

theorem i32_of_u32_lt {b : Bytes} {o n : Nat} (h : u32 b o = n) (hn : n < 2147483648) : i32 b o = n := by
  unfold i32 signed; rw [h, if_pos (by omega)]

/-! ## Streams -/

theorem Rd.bind_eq {α β} (m : Rd α) (f : α → Rd β) (s : Stream) :
    (m >>= f) s = match m s with
      | (.ok a, s') => f a s'
      | (.error e, s') => (.error e, s') := rfl

theorem Rd.pure_eq {α} (a : α) (s : Stream) : (pure a : Rd α) s = (.ok a, s) := rfl

theorem Rd.lift_eq {α} (x : Except Exc α) (s : Stream) : Rd.lift x s = (x, s) := rfl

theorem Rd.raise_eq {α} (e : Exc) (s : Stream) : (Rd.raise e : Rd α) s = (.error e, s) := rfl

/-- The stream advanced by `n`. -/
def Stream.adv (s : Stream) (n : Nat) : Stream := { s with pos := s.pos + n }

@[simp] theorem Stream.adv_adv (s : Stream) (n m : Nat) : (s.adv n).adv m = s.adv (n + m) := by
  simp [Stream.adv, Nat.add_assoc]

@[simp] theorem Stream.adv_zero (s : Stream) : s.adv 0 = s := rfl

@[simp] theorem Stream.adv_short (s : Stream) (n : Nat) : (s.adv n).short = s.short := rfl
@[simp] theorem Stream.adv_data (s : Stream) (n : Nat) : (s.adv n).data = s.data := rfl
@[simp] theorem Stream.adv_pos (s : Stream) (n : Nat) : (s.adv n).pos = s.pos + n := rfl

theorem Stream.rest_adv (s : Stream) (n : Nat) : (s.adv n).rest = s.rest.drop n := by
  simp [Stream.rest, Stream.adv, List.drop_drop]

theorem Stream.read_full {s : Stream} {a b : Bytes} {n : Nat} (h : s.rest = a ++ b) (hn : n = a.length) :
    Stream.read n s = (.ok a, s.adv n) := by
  unfold Stream.read
  rw [h, if_pos (by simp [hn]), List.take_append_of_le_length (by omega), hn, List.take_length]; rfl

theorem Stream.read_short {s : Stream} {n : Nat} (h : s.rest.length < n) (hs : s.short = none) :
    Stream.read n s = (.ok s.rest, s.adv s.rest.length) := by
  unfold Stream.read; rw [if_neg (by omega)]; split
  · rfl
  · rename_i h'; rw [hs] at h'; cases h'

theorem Stream.read_none {s : Stream} (hs : s.short = none) (n : Nat) :
    Stream.read n s = (.ok (s.rest.take n), s.adv (min n s.rest.length)) := by
  by_cases h : n ≤ s.rest.length
  · unfold Stream.read; rw [if_pos h, Nat.min_eq_left h]; rfl
  · rw [Stream.read_short (by omega) hs, Nat.min_eq_right (by omega), List.take_of_length_le (by omega)]

theorem Stream.read_raise {s : Stream} {n : Nat} {e : Exc} (h : s.rest.length < n) (hs : s.short = some e) :
    Stream.read n s = (.error e, s.adv s.rest.length) := by
  unfold Stream.read; rw [if_neg (by omega)]; split
  · rename_i h'; rw [hs] at h'; cases h'
  · rename_i h'; rw [hs] at h'; cases h'; rfl

theorem Stream.readinto_eq (n : Nat) (s : Stream) :
    Stream.readinto n s = match Stream.read n s with
      | (.ok g, s') => (.ok (g ++ List.replicate (n - g.length) 0), s')
      | (.error e, s') => (.error e, s') := by
  unfold Stream.readinto; rw [Rd.bind_eq]
  rcases Stream.read n s with ⟨_ | _, _⟩ <;> rfl

theorem Stream.readinto_full {s : Stream} {a b : Bytes} {n : Nat} (h : s.rest = a ++ b) (hn : n = a.length) :
    Stream.readinto n s = (.ok a, s.adv n) := by
  rw [Stream.readinto_eq, Stream.read_full h hn]; simp [hn]

theorem Stream.readinto_none {s : Stream} (hs : s.short = none) (n : Nat) :
    Stream.readinto n s = (.ok (s.rest.take n ++ List.replicate (n - s.rest.length) 0), s.adv (min n s.rest.length)) := by
  rw [Stream.readinto_eq, Stream.read_none hs]
  have : n - (min n s.rest.length) = n - s.rest.length := by omega
  simp [this]

theorem Stream.readinto_enough {s : Stream} {n : Nat} (h : n ≤ s.rest.length) :
    Stream.readinto n s = (.ok (s.rest.take n ++ List.replicate (n - s.rest.length) 0), s.adv (min n s.rest.length)) := by
  have e : n - s.rest.length = 0 := by omega
  have e' : min n s.rest.length = n := by omega
  have hl : (s.rest.take n).length = n := by rw [List.length_take]; omega
  rw [Stream.readinto_full (a := s.rest.take n) (b := s.rest.drop n) (List.take_append_drop n s.rest).symm hl.symm, e, e']
  simp

end Atop
