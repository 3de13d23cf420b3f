import Verif.Spec.Zlib
/-!
# Facts about zlib streams: what a decoder reads is all that matters
-/

namespace Atop.Deflate

/-- Bits still to be read. -/
def St.size (s : St) : Nat := s.bits.length + 8 * s.bytes.length

/-- A successful run depends only on the bytes it read: `c` are those, and anything may stand behind them; and it
never gives bits back. -/
def Local {α : Type} (p : P α) : Prop :=
  ∀ bs l a s', p ⟨bs, l⟩ = some (a, s') →
    s'.size ≤ (St.mk bs l).size ∧ ∃ c, l = c ++ s'.bytes ∧ ∀ t, p ⟨bs, c ++ t⟩ = some (a, ⟨s'.bits, t⟩)

theorem bind_some {α β : Type} {p : P α} {f : α → P β} {s : St} {b : β} {s' : St} :
    (p >>= f) s = some (b, s') ↔ ∃ a s1, p s = some (a, s1) ∧ f a s1 = some (b, s') := by
  show (match p s with | none => none | some (a, s1) => f a s1) = _ ↔ _
  cases h : p s with
  | none => simp
  | some r =>
    obtain ⟨a, s1⟩ := r
    constructor
    · exact fun h => ⟨a, s1, rfl, h⟩
    · rintro ⟨a', s1', e, h⟩; cases e; exact h

theorem bind_some_of {α β : Type} {p : P α} {f : α → P β} {s s1 : St} {a : α}
    (h : p s = some (a, s1)) : (p >>= f) s = f a s1 := by
  show (match p s with | none => none | some (a, s1) => f a s1) = _
  rw [h]

theorem pure_eq {α : Type} (a : α) (s : St) : (pure a : P α) s = some (a, s) := rfl

theorem local_pure {α : Type} (a : α) : Local (pure a : P α) := by
  intro bs l b s' h
  rw [pure_eq] at h
  cases h
  exact ⟨Nat.le_refl _, [], rfl, fun t => rfl⟩

theorem local_fail {α : Type} : Local (fail : P α) := by intro bs l b s' h; cases h

theorem local_need {α : Type} (o : Option α) : Local (need o) := by
  cases o with
  | none => exact local_fail
  | some a => exact local_pure a

theorem local_bind {α β : Type} {p : P α} {f : α → P β} (hp : Local p) (hf : ∀ a, Local (f a)) :
    Local (p >>= f) := by
  intro bs l b s' h
  obtain ⟨a, s1, h1, h2⟩ := bind_some.1 h
  obtain ⟨m1, c1, e1, k1⟩ := hp _ _ _ _ h1
  obtain ⟨m2, c2, e2, k2⟩ := hf a s1.bits s1.bytes b s' h2
  refine ⟨Nat.le_trans m2 m1, c1 ++ c2, by rw [List.append_assoc, ← e2, ← e1], fun t => ?_⟩
  rw [List.append_assoc, bind_some_of (k1 (c2 ++ t))]
  exact k2 t

theorem local_ite {α : Type} {c : Prop} [Decidable c] {p q : P α} (hp : Local p) (hq : Local q) :
    Local (if c then p else q) := by by_cases h : c <;> simp [h, hp, hq]

theorem bit_size {s : St} {b : Bool} {s' : St} (h : bit s = some (b, s')) : s'.size + 1 = s.size := by
  obtain ⟨bs, l⟩ := s
  cases bs with
  | cons x r => simp only [bit] at h; cases h; simp [St.size]; omega
  | nil =>
    cases l with
    | nil => simp [bit] at h
    | cons x r => simp only [bit] at h; cases h; simp [St.size]; omega

theorem local_bit : Local bit := by
  intro bs l a s' h
  refine ⟨by have := bit_size h; omega, ?_⟩
  cases bs with
  | cons x r => simp only [bit] at h; cases h; exact ⟨[], rfl, fun t => rfl⟩
  | nil =>
    cases l with
    | nil => simp [bit] at h
    | cons x r => simp only [bit] at h; cases h; exact ⟨[x], rfl, fun t => rfl⟩

theorem local_number : ∀ n, Local (number n)
  | 0 => local_pure 0
  | n + 1 => local_bind local_bit fun _ => local_bind (local_number n) fun _ => local_pure _

theorem local_align : Local align := by
  intro bs l a s' h
  unfold align at h
  cases h
  exact ⟨by simp [St.size], [], rfl, fun t => rfl⟩

theorem local_takeBytes (n : Nat) : Local (takeBytes n) := by
  intro bs l a s' h
  simp only [takeBytes] at h
  split at h
  · rename_i hn
    cases h
    refine ⟨by simp [St.size]; omega, l.take n, (List.take_append_drop n l).symm, fun t => ?_⟩
    have hl : (l.take n).length = n := by simp; omega
    simp only [takeBytes]
    rw [if_pos (by simp; omega), List.take_append_of_le_length (by omega), List.take_of_length_le (by omega),
      List.drop_append_of_le_length (by omega), List.drop_of_length_le (by omega), List.nil_append]
  · cases h

theorem local_symbolFrom (sy : List Nat) : ∀ cs code first index, Local (symbolFrom sy cs code first index)
  | [], _, _, _ => local_fail
  | _ :: r, _, _, _ => local_bind local_bit fun _ =>
      local_ite (local_need _) (local_symbolFrom sy r _ _ _)

theorem local_symbol (c : Code) : Local (symbol c) := local_symbolFrom _ _ _ _ _

/-- Reading a symbol uses at least one bit. -/
theorem symbol_size {c : Code} {s : St} {k : Nat} {s' : St} (h : symbol c s = some (k, s')) : s'.size < s.size := by
  unfold symbol at h
  cases hc : c.counts with
  | nil => rw [hc] at h; cases h
  | cons n r =>
    rw [hc] at h
    obtain ⟨b, s1, h1, h2⟩ := bind_some.1 h
    have := bit_size h1
    have hl : Local (if 0 + b.toNat < 0 + n then need c.symbols[0 + (0 + b.toNat - 0)]?
        else symbolFrom c.symbols r (2 * (0 + b.toNat)) (2 * (0 + n)) (0 + n)) :=
      local_ite (local_need _) (local_symbolFrom _ _ _ _ _)
    have := (hl s1.bits s1.bytes _ _ h2).1
    have e : (St.mk s1.bits s1.bytes) = s1 := rfl
    rw [e] at this
    omega

theorem local_symbols (lit dist : Code) : ∀ n out, Local (symbols lit dist n out)
  | 0, _ => local_fail
  | n + 1, _ => local_bind (local_symbol lit) fun _ =>
      local_ite (local_symbols lit dist n _) <| local_ite (local_pure _) <|
        local_bind (local_need _) fun _ => local_bind (local_number _) fun _ => local_bind (local_symbol dist) fun _ =>
          local_bind (local_need _) fun _ => local_bind (local_number _) fun _ =>
            local_ite local_fail (local_symbols lit dist n _)

theorem local_storedBlock (out : Bytes) : Local (storedBlock out) :=
  local_bind local_align fun _ => local_bind (local_number _) fun _ => local_bind (local_number _) fun _ =>
    local_ite (local_bind (local_takeBytes _) fun _ => local_pure _) local_fail

theorem local_threes : ∀ n, Local (threes n)
  | 0 => local_pure []
  | n + 1 => local_bind (local_number _) fun _ => local_bind (local_threes n) fun _ => local_pure _

theorem local_lengths (c : Code) (total : Nat) : ∀ n acc, Local (lengths c total n acc)
  | 0, _ => local_ite (local_pure _) local_fail
  | n + 1, _ => local_ite (local_pure _) <| local_bind (local_symbol c) fun _ =>
      local_ite (local_lengths c total n _) <|
        local_bind (local_need _) fun _ => local_bind (local_number _) fun _ =>
          local_ite local_fail (local_lengths c total n _)

theorem local_dynamicCodes : Local dynamicCodes :=
  local_bind (local_number _) fun _ => local_bind (local_number _) fun _ => local_bind (local_number _) fun _ =>
    local_ite local_fail <| local_bind (local_threes _) fun _ =>
      local_ite (local_bind (local_lengths _ _ _ _) fun _ => local_ite (local_pure _) local_fail) local_fail

theorem local_block (kind fuel : Nat) (out : Bytes) : Local (block kind fuel out) :=
  local_ite (local_storedBlock out) <| local_ite (local_symbols _ _ _ _) <|
    local_ite (local_bind local_dynamicCodes fun _ => local_symbols _ _ _ _) local_fail

theorem local_blocks : ∀ n out, Local (blocks n out)
  | 0, _ => local_fail
  | n + 1, out => local_bind local_bit fun _ => local_bind (local_number _) fun kind =>
      local_bind (local_block kind n out) fun o => local_ite (local_pure o) (local_blocks n o)

theorem local_stream (n : Nat) : Local (stream n) :=
  local_bind (local_number _) fun _ => local_bind (local_number _) fun _ =>
    local_ite (local_bind (local_blocks n []) fun _ => local_bind local_align fun _ =>
      local_bind (local_number _) fun _ => local_bind (local_number _) fun _ => local_bind (local_number _) fun _ =>
        local_bind (local_number _) fun _ => local_ite (local_pure _) local_fail) local_fail

/-! ## The budget never matters -/

/-- Any budget above the bits used gives the same successful run. -/
def Enough {α : Type} (p : Nat → P α) : Prop :=
  ∀ n s a s' m, p n s = some (a, s') → s.size - s'.size < m → p m s = some (a, s')

theorem size_le {α : Type} {p : P α} (hp : Local p) {s s' : St} {a : α} (h : p s = some (a, s')) :
    s'.size ≤ s.size := (hp s.bits s.bytes a s' h).1

theorem enough_symbols (lit dist : Code) (out : Bytes) : Enough (fun n => symbols lit dist n out) := by
  intro n
  induction n generalizing out with
  | zero => intro s a s' m h; cases h
  | succ n ih =>
    intro s a s' m h hm
    obtain ⟨m, rfl⟩ : ∃ k, m = k + 1 := ⟨m - 1, by omega⟩
    obtain ⟨k, s1, h1, h2⟩ := bind_some.1 h
    have d1 := symbol_size h1
    refine bind_some.2 ⟨k, s1, h1, ?_⟩
    by_cases c1 : k < 256
    · rw [if_pos c1] at h2 ⊢
      exact ih _ s1 a s' m h2 (by have := size_le (local_symbols _ _ _ _) h2; omega)
    · rw [if_neg c1] at h2 ⊢
      by_cases c2 : k = 256
      · rw [if_pos c2] at h2 ⊢; exact h2
      · rw [if_neg c2] at h2 ⊢
        obtain ⟨p1, s2, e1, h2⟩ := bind_some.1 h2
        obtain ⟨more, s3, e2, h2⟩ := bind_some.1 h2
        obtain ⟨d, s4, e3, h2⟩ := bind_some.1 h2
        obtain ⟨p2, s5, e4, h2⟩ := bind_some.1 h2
        obtain ⟨dmore, s6, e5, h2⟩ := bind_some.1 h2
        refine bind_some.2 ⟨p1, s2, e1, bind_some.2 ⟨more, s3, e2, bind_some.2 ⟨d, s4, e3, bind_some.2 ⟨p2, s5, e4,
          bind_some.2 ⟨dmore, s6, e5, ?_⟩⟩⟩⟩⟩
        have l1 := size_le (local_need _) e1
        have l2 := size_le (local_number _) e2
        have l3 := size_le (local_symbol _) e3
        have l4 := size_le (local_need _) e4
        have l5 := size_le (local_number _) e5
        by_cases c3 : out.length < p2.1 + dmore
        · rw [if_pos c3] at h2; cases h2
        · rw [if_neg c3] at h2 ⊢
          exact ih _ s6 a s' m h2 (by have := size_le (local_symbols _ _ _ _) h2; omega)

theorem enough_block (kind : Nat) (out : Bytes) : Enough (fun n => block kind n out) := by
  intro n s a s' m h hm
  simp only [block] at h ⊢
  by_cases c0 : kind = 0
  · rw [if_pos c0] at h ⊢; exact h
  rw [if_neg c0] at h ⊢
  by_cases c1 : kind = 1
  · rw [if_pos c1] at h ⊢; exact enough_symbols _ _ _ n s a s' m h hm
  rw [if_neg c1] at h ⊢
  by_cases c2 : kind = 2
  · rw [if_pos c2] at h ⊢
    obtain ⟨c, s1, h1, h2⟩ := bind_some.1 h
    refine bind_some.2 ⟨c, s1, h1, enough_symbols _ _ _ n s1 a s' m h2 ?_⟩
    have := size_le local_dynamicCodes h1
    have := size_le (local_symbols _ _ _ _) h2
    omega
  · rw [if_neg c2] at h; cases h

theorem enough_blocks (out : Bytes) : Enough (fun n => blocks n out) := by
  intro n
  induction n generalizing out with
  | zero => intro s a s' m h; cases h
  | succ n ih =>
    intro s a s' m h hm
    obtain ⟨m, rfl⟩ : ∃ k, m = k + 1 := ⟨m - 1, by omega⟩
    obtain ⟨final, s1, h1, h2⟩ := bind_some.1 h
    obtain ⟨kind, s2, h3, h4⟩ := bind_some.1 h2
    obtain ⟨o, s3, h5, h6⟩ := bind_some.1 h4
    have d1 := bit_size h1
    have d2 := size_le (local_number _) h3
    have d3 := size_le (local_block _ _ _) h5
    have d4 : s'.size ≤ s3.size := size_le (local_ite (local_pure _) (local_blocks _ _)) h6
    refine bind_some.2 ⟨final, s1, h1, bind_some.2 ⟨kind, s2, h3, bind_some.2 ⟨o, s3,
      enough_block _ _ n s2 o s3 m h5 (by omega), ?_⟩⟩⟩
    cases final with
    | true => exact h6
    | false => exact ih _ s3 a s' m h6 (by omega)

theorem enough_stream : Enough stream := by
  intro n s a s' m h hm
  obtain ⟨cmf, s1, h1, h⟩ := bind_some.1 h
  obtain ⟨flg, s2, h2, h⟩ := bind_some.1 h
  refine bind_some.2 ⟨cmf, s1, h1, bind_some.2 ⟨flg, s2, h2, ?_⟩⟩
  have d1 := size_le (local_number _) h1
  have d2 := size_le (local_number _) h2
  split at h
  · rename_i hc
    rw [if_pos hc]
    obtain ⟨out, s3, h3, h⟩ := bind_some.1 h
    have d3 := size_le (local_blocks _ _) h3
    have d4 : s'.size ≤ s3.size := size_le (local_bind local_align fun _ =>
      local_bind (local_number _) fun _ => local_bind (local_number _) fun _ => local_bind (local_number _) fun _ =>
        local_bind (local_number _) fun _ => local_ite (local_pure _) local_fail) h
    exact bind_some.2 ⟨out, s3, enough_blocks _ n s2 out s3 m h3 (by omega), h⟩
  · cases h

theorem stream_any {n : Nat} {b : Bytes} {d : Bytes} {s : St} (h : stream n ⟨[], b⟩ = some (d, s)) :
    unpack b = some (d, s.bytes) := by
  unfold unpack
  rw [enough_stream n ⟨[], b⟩ d s (8 * b.length + 1) h (by simp [St.size]; omega)]

/-- The stream at the beginning of the bytes is found whatever stands behind it. -/
theorem unpack_local {b d rest : Bytes} (h : unpack b = some (d, rest)) :
    ∃ c, b = c ++ rest ∧ ∀ t, unpack (c ++ t) = some (d, t) := by
  unfold unpack at h
  split at h
  · rename_i d' s hs
    cases h
    obtain ⟨-, c, e, k⟩ := local_stream _ _ _ _ _ hs
    exact ⟨c, e, fun t => stream_any (k t)⟩
  · cases h

theorem unpack_append {b d : Bytes} (h : unpack b = some (d, [])) (t : Bytes) : unpack (b ++ t) = some (d, t) := by
  obtain ⟨c, e, k⟩ := unpack_local h
  rw [List.append_nil] at e
  exact e ▸ k t

/-- No proper prefix of a stream begins with a stream. -/
theorem unpack_cut {b d : Bytes} (h : unpack b = some (d, [])) (k : Nat) (hk : k < b.length) :
    unpack (b.take k) = none := by
  cases hc : unpack (b.take k) with
  | none => rfl
  | some r =>
    obtain ⟨d', rest⟩ := r
    obtain ⟨c, e, hloc⟩ := unpack_local hc
    have h2 := hloc (rest ++ b.drop k)
    rw [← List.append_assoc, ← e, List.take_append_drop, h] at h2
    simp only [Option.some.injEq, Prod.mk.injEq] at h2
    have := congrArg List.length h2.2
    simp at this
    omega

end Atop.Deflate
