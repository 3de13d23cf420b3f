import Verif.Proofs.Paths
/-!
# Generators of rows
-/

namespace Atop
open Spec

/-- What one row attempt gives. -/
def Shows (e : Except Exc PRow) (bs : List Bytes) (mk : List PyStr → PRow) : Prop :=
  (∃ ss, Decoded bs ss ∧ e = .ok (mk ss)) ∨ (e = .error .unicodeDecodeError ∧ ¬ ∃ ss, Decoded bs ss)

theorem yields_ofList : ∀ (es : List (Except Exc PRow)) (texts : Nat → List Bytes) (mk : Nat → List PyStr → PRow),
    (∀ (i : Nat) e, es[i]? = some e → Shows e (texts i) (mk i)) → Yields (Rows.ofList es) es.length texts mk
  | [], _, _, _ => ⟨by intro i r h; simp [Rows.ofList] at h, fun _ => rfl, by intro e h; simp [Rows.ofList] at h⟩
  | x :: rest, texts, mk, h => by
    have h0 := h 0 x rfl
    have ih := yields_ofList rest (fun i => texts (i + 1)) (fun i => mk (i + 1)) (fun i e he => h (i + 1) e (by simpa using he))
    rcases h0 with ⟨ss, hd, rfl⟩ | ⟨rfl, hn⟩
    · refine ⟨?_, ?_, ?_⟩
      · intro i r hi
        cases i with
        | zero => simp [Rows.ofList] at hi; exact ⟨ss, hd, hi.symm⟩
        | succ i => exact ih.rows i r (by simpa [Rows.ofList] using hi)
      · intro he; have := ih.ended he; simp only [Rows.ofList, List.length_cons, this]
      · intro e he
        obtain ⟨h1, h2, h3⟩ := ih.failed e he
        exact ⟨h1, by simp only [Rows.ofList, List.length_cons]; omega, h3⟩
    · refine ⟨by intro i r hi; simp [Rows.ofList] at hi, by intro he; simp [Rows.ofList] at he, ?_⟩
      intro e he
      simp [Rows.ofList] at he
      subst he
      exact ⟨rfl, by simp [Rows.ofList], hn⟩

theorem decode_cases (b : Bytes) : (∃ s, (∀ c ∈ s, scalar c) ∧ encodeText s = b ∧ decodeStrict b = .ok s) ∨
    (decodeStrict b = .error .unicodeDecodeError ∧ ∀ s, (∀ c ∈ s, scalar c) → encodeText s ≠ b) := by
  cases h : decodeStrict b with
  | ok s => obtain ⟨h1, h2⟩ := (decodeStrict_iff b s).mp h; exact .inl ⟨s, h1, h2.symm, rfl⟩
  | error e =>
    obtain ⟨rfl, hn⟩ := (decodeStrict_error b e).mp h
    exact .inr ⟨rfl, fun s h1 h2 => hn ⟨s, h1, h2.symm⟩⟩

theorem shows_none {e : Except Exc PRow} {mk : List PyStr → PRow} (h : e = .ok (mk [])) : Shows e [] mk :=
  .inl ⟨[], ⟨by simp, rfl⟩, h⟩

theorem not_decoded_cons {b : Bytes} {bs : List Bytes} (h : ∀ s, (∀ c ∈ s, scalar c) → encodeText s ≠ b) :
    ¬ ∃ ss, Decoded (b :: bs) ss := by
  rintro ⟨ss, h1, h2⟩
  cases ss with
  | nil => simp at h2
  | cons s ss => simp at h2; exact h s (h1 s (by simp)) h2.1

theorem not_decoded_tail {b : Bytes} {bs : List Bytes} (h : ¬ ∃ ss, Decoded bs ss) : ¬ ∃ ss, Decoded (b :: bs) ss := by
  rintro ⟨ss, h1, h2⟩
  cases ss with
  | nil => simp at h2
  | cons s ss =>
    simp at h2
    exact h ⟨ss, fun x hx => h1 x (by simp [hx]), h2.2⟩

/-- One text: the row is complete when it decodes and fails when it does not. -/
theorem shows_text {e : Except Exc PRow} {b : Bytes} {bs : List Bytes} {mk : List PyStr → PRow}
    (hok : ∀ s, decodeStrict b = .ok s → Shows e bs (fun ss => mk (s :: ss)))
    (herr : decodeStrict b = .error .unicodeDecodeError → e = .error .unicodeDecodeError) : Shows e (b :: bs) mk := by
  rcases decode_cases b with ⟨s, h1, h2, h3⟩ | ⟨h1, h2⟩
  · rcases hok s h3 with ⟨ss, ⟨hd, hm⟩, he⟩ | ⟨he, hn⟩
    · exact .inl ⟨s :: ss, ⟨by intro x hx; rcases List.mem_cons.mp hx with rfl | hx
                               · exact h1
                               · exact hd x hx, by simp [h2, hm]⟩, he⟩
    · exact .inr ⟨he, not_decoded_tail hn⟩
  · exact .inr ⟨herr h1, not_decoded_cons h2⟩

theorem getStr_bytes {x : PyObj} {p : List PyStr} {b : Bytes} (h : getBytes x p = .ok b) :
    getStr x p = (decodeStrict b).map JVal.str := by
  unfold getStr; rw [h]
  show (do return JVal.str (← decodeStrict b)) = _
  cases decodeStrict b <;> rfl

theorem getStr_ok {x : PyObj} {p : List PyStr} {b : Bytes} {s : PyStr} (h : getBytes x p = .ok b)
    (hd : decodeStrict b = .ok s) : getStr x p = .ok (.str s) := by
  rw [getStr_bytes h, hd]; rfl

theorem getStr_err {x : PyObj} {p : List PyStr} {b : Bytes} {e : Exc} (h : getBytes x p = .ok b)
    (hd : decodeStrict b = .error e) : getStr x p = .error e := by
  rw [getStr_bytes h, hd]; rfl

/-! ## The list parsers -/

theorem cpuLoop_rows {a : PArgs} {n : Int} (hn : getInt a.sstat [py!"cpu", py!"nrcpu"] = .ok n) (f : Nat → PyObj)
    (r : Nat → PRow) {N : Nat} (hrow : ∀ j : Nat, j < N → row (stamp a ++ [
          (py!"ticks", get a.header [py!"hertz"]),
          (py!"proc", .ok (.int j)),
          (py!"system", get (f j) [py!"stime"]),
          (py!"user", get (f j) [py!"utime"]),
          (py!"niced", get (f j) [py!"ntime"]),
          (py!"idle", get (f j) [py!"itime"]),
          (py!"wait", get (f j) [py!"wtime"]),
          (py!"irq", get (f j) [py!"Itime"]),
          (py!"softirq", get (f j) [py!"Stime"]),
          (py!"steal", get (f j) [py!"steal"]),
          (py!"guest", get (f j) [py!"guest"])]) = .ok (r j)) : ∀ (m j : Nat), j + m ≤ N →
    Rows.ofList (cpuLoop a ((List.range' j m).map f) j) = ⟨(List.range' j (min m (n - j).toNat)).map r, none⟩
  | 0, j, _ => by simp [cpuLoop, Rows.ofList]
  | m + 1, j, hN => by
    rw [List.range'_succ, List.map_cons, cpuLoop, hn]
    dsimp only
    by_cases hj : (j : Int) ≥ n
    · rw [if_pos hj, show min (m + 1) (n - j).toNat = 0 by omega]; rfl
    · rw [if_neg hj, hrow j (by omega), Rows.ofList, cpuLoop_rows hn f r hrow m (j + 1) (by omega),
        show min (m + 1) (n - j).toNat = min m (n - (j + 1 : Nat)).toNat + 1 by omega, List.range'_succ]
      rfl

theorem untilEmptyName_rows (g : PyObj → Except Exc PRow) (f : Nat → PyObj) (nm : Nat → Bytes)
    (hnm : ∀ j, getBytes (f j) [py!"name"] = .ok (nm j)) : ∀ (m j n : Nat), n ≤ m →
    (∀ i, i < n → nm (j + i) ≠ []) → (n = m ∨ nm (j + n) = []) →
    untilEmptyName g ((List.range' j m).map f) = (List.range' j n).map (fun i => g (f i))
  | 0, j, n, hn, _, _ => by have : n = 0 := by omega
                            subst this; rfl
  | m + 1, j, n, hn, h1, h2 => by
    rw [List.range'_succ, List.map_cons, untilEmptyName, hnm j]
    dsimp only
    cases n with
    | zero =>
      have : nm j = [] := by simpa using h2
      rw [this]; rfl
    | succ n =>
      have h0 : nm j ≠ [] := by simpa using h1 0 (by omega)
      have hne : (nm j).isEmpty = false := by cases h : nm j with | nil => exact absurd h h0 | cons => rfl
      rw [hne, List.range'_succ, List.map_cons]
      show g (f j) :: _ = _
      rw [untilEmptyName_rows g f nm hnm m (j + 1) n (by omega)]
      · intro i hi
        have := h1 (i + 1) (by omega)
        rwa [show j + 1 + i = j + (i + 1) by omega]
      · rcases h2 with h | h
        · exact .inl (by omega)
        · exact .inr (by rwa [show j + 1 + n = j + (n + 1) by omega])

theorem field_nil {b : Bytes} {o w : Nat} (hw : 0 < w) : field b o w = [] ↔ u8 b o = 0 := by
  unfold field u8
  rw [List.getD_eq_getElem?_getD, show b[o]? = (b.drop o)[0]? by simp]
  cases h : b.drop o with
  | nil => simp [beforeNul]
  | cons x r =>
    obtain ⟨v, rfl⟩ : ∃ v, w = v + 1 := ⟨w - 1, by omega⟩
    rw [List.take_succ_cons, beforeNul]
    by_cases hx : x = 0
    · simp [hx]
    · simp [hx]
      intro h0
      apply hx
      exact UInt8.toNat_inj.mp h0

/-! ## Fields of an entry -/

theorem getD_slot {mem : Bytes} {o k : Nat} {e : CType} (h : k < e.size) : (slot mem o e).getD k 0 = mem.getD (o + k) 0 := by
  unfold slot
  rw [List.getD_eq_getElem?_getD, List.getD_eq_getElem?_getD, List.getElem?_take_of_lt h, List.getElem?_drop]

theorem u8_slot {mem : Bytes} {o k : Nat} {e : CType} (h : k + 1 ≤ e.size) : u8 (slot mem o e) k = u8 mem (o + k) := by
  unfold u8; rw [getD_slot (by omega)]

theorem u16_slot {mem : Bytes} {o k : Nat} {e : CType} (h : k + 2 ≤ e.size) : u16 (slot mem o e) k = u16 mem (o + k) := by
  unfold u16; rw [u8_slot (by omega), u8_slot (by omega)]; rfl

theorem u32_slot {mem : Bytes} {o k : Nat} {e : CType} (h : k + 4 ≤ e.size) : u32 (slot mem o e) k = u32 mem (o + k) := by
  unfold u32; rw [u16_slot (by omega), u16_slot (by omega)]; rfl

theorem u64_slot {mem : Bytes} {o k : Nat} {e : CType} (h : k + 8 ≤ e.size) : u64 (slot mem o e) k = u64 mem (o + k) := by
  unfold u64; rw [u32_slot (by omega), u32_slot (by omega)]; rfl

theorem i64_slot {mem : Bytes} {o k : Nat} {e : CType} (h : k + 8 ≤ e.size) : i64 (slot mem o e) k = i64 mem (o + k) := by
  unfold i64; rw [u64_slot h]

theorem field_slot {mem : Bytes} {o k w : Nat} {e : CType} (h : k + w ≤ e.size) :
    field (slot mem o e) k w = field mem (o + k) w := by
  unfold field slot
  rw [List.drop_take, List.drop_drop, List.take_take, Nat.min_eq_left (by omega)]

end Atop
