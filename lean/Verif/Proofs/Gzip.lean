import Verif.Spec.Gzip
import Verif.Proofs.ZlibStore
/-!
# Facts about gzip files
-/

namespace Atop.Gzip
open Deflate

theorem dropWhile_append_zero {l : Bytes} (h : (0 : UInt8) ∈ l) (t : Bytes) :
    ((l ++ t).dropWhile (· != 0)).drop 1 = (l.dropWhile (· != 0)).drop 1 ++ t := by
  induction l with
  | nil => cases h
  | cons x l ih =>
    rw [List.cons_append, List.dropWhile_cons, List.dropWhile_cons]
    by_cases hx : x = 0
    · subst hx; simp
    · have : (x != 0) = true := by simpa using hx
      rw [if_pos this, if_pos this]
      exact ih (by rcases List.mem_cons.mp h with h | h; exact absurd h.symm hx; exact h)

theorem skipText_split {l : Bytes} (h : (0 : UInt8) ∈ l) :
    ∃ c, l = c ++ (l.dropWhile (· != 0)).drop 1 ∧ 0 ∈ c ∧ (c.dropWhile (· != 0)).drop 1 = [] := by
  induction l with
  | nil => cases h
  | cons x l ih =>
    by_cases hx : x = 0
    · subst hx; exact ⟨[0], by simp⟩
    · have hx' : (x != 0) = true := by simpa using hx
      obtain ⟨c, e, h1, h2⟩ := ih (by rcases List.mem_cons.mp h with h | h; exact absurd h.symm hx; exact h)
      refine ⟨x :: c, ?_, by simp [h1], ?_⟩
      · rw [List.dropWhile_cons, if_pos hx', List.cons_append, ← e]
      · rw [List.dropWhile_cons, if_pos hx', h2]

theorem local_skipText : Local skipText := by
  intro bs l a s' h
  unfold skipText at h
  dsimp only at h
  split at h
  · rename_i h0
    cases h
    obtain ⟨c, e, h1, h2⟩ := skipText_split h0
    refine ⟨?_, c, e, fun t => ?_⟩
    · have := congrArg List.length e
      rw [List.length_append] at this
      simp only [St.size]
      omega
    · unfold skipText
      dsimp only
      rw [if_pos (by simp [h1]), dropWhile_append_zero h1, h2, List.nil_append]
  · cases h

theorem local_skipIf {c : Bool} {p : P Unit} (h : Local p) : Local (skipIf c p) := by
  unfold skipIf
  cases c with
  | true => exact h
  | false => exact local_pure ()

theorem local_trailer (out : Bytes) : Local (do
    align
    let crc ← number 32
    let size ← number 32
    if crc = crc32 out.reverse ∧ size = out.length % 2 ^ 32 then return out.reverse else fail : P Bytes) :=
  local_bind local_align fun _ => local_bind (local_number _) fun _ => local_bind (local_number _) fun _ =>
    local_ite (local_pure _) local_fail

theorem local_memberP (n : Nat) : Local (memberP n) :=
  local_bind (local_number _) fun _ => local_bind (local_number _) fun _ => local_bind (local_number _) fun _ =>
    local_bind (local_takeBytes _) fun _ => local_ite
      (local_bind (local_skipIf (local_bind (local_number _) fun _ => local_bind (local_takeBytes _) fun _ => local_pure _)) fun _ =>
        local_bind (local_skipIf local_skipText) fun _ => local_bind (local_skipIf local_skipText) fun _ =>
          local_bind (local_skipIf (local_bind (local_takeBytes _) fun _ => local_pure _)) fun _ =>
            local_bind (local_blocks n []) fun out => local_trailer out) local_fail

theorem enough_memberP : Enough memberP := by
  intro n s a s' m h hm
  obtain ⟨id, s1, h1, h⟩ := bind_some.1 h
  obtain ⟨me, s2, h2, h⟩ := bind_some.1 h
  obtain ⟨fl, s3, h3, h⟩ := bind_some.1 h
  obtain ⟨x, s4, h4, h⟩ := bind_some.1 h
  refine bind_some.2 ⟨id, s1, h1, bind_some.2 ⟨me, s2, h2, bind_some.2 ⟨fl, s3, h3, bind_some.2 ⟨x, s4, h4, ?_⟩⟩⟩⟩
  have d1 := size_le (local_number _) h1
  have d2 := size_le (local_number _) h2
  have d3 := size_le (local_number _) h3
  have d4 := size_le (local_takeBytes _) h4
  split at h
  · rename_i hc
    rw [if_pos hc]
    obtain ⟨y1, s5, h5, h⟩ := bind_some.1 h
    obtain ⟨y2, s6, h6, h⟩ := bind_some.1 h
    obtain ⟨y3, s7, h7, h⟩ := bind_some.1 h
    obtain ⟨y4, s8, h8, h⟩ := bind_some.1 h
    obtain ⟨out, s9, h9, h⟩ := bind_some.1 h
    have d5 := size_le (local_skipIf (local_bind (local_number _) fun _ => local_bind (local_takeBytes _) fun _ => local_pure _)) h5
    have d6 := size_le (local_skipIf local_skipText) h6
    have d7 := size_le (local_skipIf local_skipText) h7
    have d8 := size_le (local_skipIf (local_bind (local_takeBytes _) fun _ => local_pure _)) h8
    have d9 := size_le (local_blocks _ _) h9
    have d10 : s'.size ≤ s9.size := size_le (local_trailer out) h
    exact bind_some.2 ⟨y1, s5, h5, bind_some.2 ⟨y2, s6, h6, bind_some.2 ⟨y3, s7, h7, bind_some.2 ⟨y4, s8, h8,
      bind_some.2 ⟨out, s9, enough_blocks _ n s8 out s9 m h9 (by omega), h⟩⟩⟩⟩⟩
  · cases h

theorem member_any {n : Nat} {b : Bytes} {d : Bytes} {s : St} (h : memberP n ⟨[], b⟩ = some (d, s)) :
    member b = some (d, s.bytes) := by
  unfold member
  rw [enough_memberP n ⟨[], b⟩ d s (8 * b.length + 1) h (by simp [St.size]; omega)]

theorem member_nil : member [] = none := rfl

/-- The member at the beginning of the bytes is found whatever stands behind it. -/
theorem member_local {b d rest : Bytes} (h : member b = some (d, rest)) :
    ∃ c, c ≠ [] ∧ b = c ++ rest ∧ ∀ t, member (c ++ t) = some (d, t) := by
  unfold member at h
  split at h
  · rename_i d' s hs
    cases h
    obtain ⟨-, c, e, k⟩ := local_memberP _ _ _ _ _ hs
    refine ⟨c, ?_, e, fun t => member_any (k t)⟩
    rintro rfl
    have := member_any (k [])
    rw [List.nil_append, member_nil] at this
    cases this
  · cases h

theorem member_shorter {b d rest : Bytes} (h : member b = some (d, rest)) : rest.length < b.length := by
  obtain ⟨c, hc, e, -⟩ := member_local h
  rw [e, List.length_append]
  have := List.length_pos_iff.mpr hc
  omega

theorem members_fuel : ∀ (n m : Nat) (b : Bytes), b.length ≤ n → b.length ≤ m → members n b = members m b
  | 0, 0, _, _, _ => rfl
  | 0, m + 1, b, h, _ => by
    have : b = [] := List.length_eq_zero_iff.mp (by omega)
    subst this; rfl
  | n + 1, 0, b, _, h => by
    have : b = [] := List.length_eq_zero_iff.mp (by omega)
    subst this; rfl
  | n + 1, m + 1, b, hn, hm => by
    rw [members, members]
    by_cases hb : b = []
    · rw [if_pos hb, if_pos hb]
    · rw [if_neg hb, if_neg hb]
      cases h : member b with
      | none => rfl
      | some r =>
        obtain ⟨d, rest⟩ := r
        have h1 := member_shorter h
        have h2 := (List.dropWhile_suffix (l := rest) (· == 0)).length_le
        dsimp only
        rw [members_fuel n m _ (by omega) (by omega)]

theorem gunzip_nil : gunzip [] = some [] := rfl

theorem gunzip_step {b : Bytes} (hb : b ≠ []) : gunzip b =
    match member b with
    | none => none
    | some (d, rest) => (gunzip (rest.dropWhile (· == 0))).map (d ++ ·) := by
  unfold gunzip
  cases hl : b.length with
  | zero => exact absurd (List.length_eq_zero_iff.mp hl) hb
  | succ n =>
    rw [members, if_neg hb]
    cases h : member b with
    | none => rfl
    | some r =>
      obtain ⟨d, rest⟩ := r
      have h1 := member_shorter h
      have h2 := (List.dropWhile_suffix (l := rest) (· == 0)).length_le
      dsimp only
      rw [members_fuel n _ _ (by omega) (Nat.le_refl _)]

theorem dropWhile_zero_append (l e : Bytes) : ((l ++ e).dropWhile (· == 0) = l.dropWhile (· == 0) ++ e) ∨
    (l.dropWhile (· == 0) = []) := by
  induction l with
  | nil => exact .inr rfl
  | cons x l ih =>
    rw [List.cons_append, List.dropWhile_cons, List.dropWhile_cons]
    by_cases hx : (x == 0) = true
    · rw [if_pos hx, if_pos hx]; exact ih
    · rw [if_neg hx, if_neg hx]; exact .inl rfl

/-- Of two files, one a prefix of the other, the contents are too. -/
theorem gunzip_prefix : ∀ (n : Nat) (b e : Bytes), b.length ≤ n → ∀ {c c' : Bytes}, gunzip b = some c → gunzip (b ++ e) = some c' →
    c <+: c' := by
  intro n
  induction n with
  | zero =>
    intro b e hb c c' h h'
    have : b = [] := List.length_eq_zero_iff.mp (by omega)
    subst this
    rw [gunzip_nil] at h
    injection h with h
    rw [← h]; exact List.nil_prefix
  | succ n ih =>
    intro b e hb c c' h h'
    by_cases hn : b = []
    · subst hn
      rw [gunzip_nil] at h
      injection h with h
      rw [← h]; exact List.nil_prefix
    · rw [gunzip_step hn] at h
      rw [gunzip_step (by simp [hn])] at h'
      cases hm : member b with
      | none => rw [hm] at h; cases h
      | some r =>
        obtain ⟨d, rest⟩ := r
        have hs := member_shorter hm
        obtain ⟨m, -, em, hloc⟩ := member_local hm
        have hm' : member (b ++ e) = some (d, rest ++ e) := by
          rw [em, List.append_assoc]; exact hloc _
        rw [hm] at h; rw [hm'] at h'
        dsimp only at h h'
        cases hr : gunzip (rest.dropWhile (· == 0)) with
        | none => rw [hr] at h; cases h
        | some x =>
          rw [hr] at h
          cases hr' : gunzip ((rest ++ e).dropWhile (· == 0)) with
          | none => rw [hr'] at h'; cases h'
          | some x' =>
            rw [hr'] at h'
            simp only [Option.map_some, Option.some.injEq] at h h'
            rw [← h, ← h']
            refine (List.prefix_append_right_inj d).mpr ?_
            have hl := (List.dropWhile_suffix (l := rest) (· == 0)).length_le
            rcases dropWhile_zero_append rest e with hz | hz
            · rw [hz] at hr'
              exact ih _ e (by omega) hr hr'
            · rw [hz, gunzip_nil] at hr
              injection hr with hr
              rw [← hr]; exact List.nil_prefix

/-- A file of one member cut anywhere, but not completely, is no gzip file. -/
theorem gunzip_cut {b d : Bytes} (h : member b = some (d, [])) (k : Nat) (h0 : 0 < k) (hk : k < b.length) :
    gunzip (b.take k) = none := by
  have hn : b.take k ≠ [] := by
    intro e
    have := congrArg List.length e
    rw [List.length_take, List.length_nil] at this
    omega
  rw [gunzip_step hn]
  cases hm : member (b.take k) with
  | none => rfl
  | some r =>
    obtain ⟨d', rest⟩ := r
    obtain ⟨c, -, e, hloc⟩ := member_local hm
    have h2 := hloc (rest ++ b.drop k)
    rw [← List.append_assoc, ← e, List.take_append_drop, h] at h2
    simp only [Option.some.injEq, Prod.mk.injEq] at h2
    have := congrArg List.length h2.2
    simp at this
    omega

theorem gunzip_single {b d : Bytes} (h : member b = some (d, [])) : gunzip b = some d := by
  have hb : b ≠ [] := by rintro rfl; rw [member_nil] at h; cases h
  rw [gunzip_step hb, h]
  simp [gunzip_nil]

/-- Files may be joined. -/
theorem gunzip_append {b d : Bytes} (h : member b = some (d, [])) (c : Bytes) (hc : c.head? ≠ some 0) :
    gunzip (b ++ c) = (gunzip c).map (d ++ ·) := by
  have hb : b ≠ [] := by rintro rfl; rw [member_nil] at h; cases h
  obtain ⟨m, -, e, hloc⟩ := member_local h
  rw [List.append_nil] at e
  subst e
  rw [gunzip_step (by simp [hb]), hloc c]
  have : c.dropWhile (· == 0) = c := by
    cases c with
    | nil => rfl
    | cons x c =>
      rw [List.dropWhile_cons, if_neg]
      intro hx
      exact hc (by simpa using hx)
  simp only [this]

/-! ## Writing -/

/-- Little-endian 32-bit number. -/
def le32 (n : Nat) : Bytes :=
  [UInt8.ofNat (n % 256), UInt8.ofNat (n / 256 % 256), UInt8.ofNat (n / 65536 % 256), UInt8.ofNat (n / 16777216)]

/-- A gzip file with content `d`. -/
def store (d : Bytes) : Bytes :=
  [31, 139, 8, 0, 0, 0, 0, 0, 0, 255] ++ (storeBlocks (d.length / 65535) d ++ (le32 (crc32 d) ++ le32 (d.length % 2 ^ 32)))

theorem crcBit_lt {c : Nat} (h : c < 2 ^ 32) : crcBit c < 2 ^ 32 := by
  unfold crcBit
  split
  · exact Nat.xor_lt_two_pow (by omega) (by omega)
  · omega

theorem crc32_lt (d : Bytes) : crc32 d < 2 ^ 32 := by
  unfold crc32
  refine Nat.xor_lt_two_pow ?_ (by omega)
  have : ∀ (d : Bytes) (c : Nat), c < 2 ^ 32 → d.foldl (fun c x => crcBit (crcBit (crcBit (crcBit (crcBit (crcBit (crcBit
      (crcBit (c ^^^ x.toNat))))))))) c < 2 ^ 32 := by
    intro d
    induction d with
    | nil => intro c h; exact h
    | cons x d ih =>
      intro c h
      refine ih _ ?_
      have : x.toNat < 2 ^ 32 := Nat.lt_trans x.toNat_lt (by decide)
      iterate 8 refine crcBit_lt ?_
      exact Nat.xor_lt_two_pow h this
  exact this d _ (by omega)

theorem number_le32 {n : Nat} (hn : n < 2 ^ 32) (l : Bytes) : number 32 ⟨[], le32 n ++ l⟩ = some (n, ⟨[], l⟩) := by
  have e1 := number_byte (UInt8.ofNat (n % 256)) (UInt8.ofNat (n / 256 % 256) :: UInt8.ofNat (n / 65536 % 256) ::
    UInt8.ofNat (n / 16777216) :: l)
  have e2 := number_byte (UInt8.ofNat (n / 256 % 256)) (UInt8.ofNat (n / 65536 % 256) :: UInt8.ofNat (n / 16777216) :: l)
  have e3 := number_byte (UInt8.ofNat (n / 65536 % 256)) (UInt8.ofNat (n / 16777216) :: l)
  have e4 := number_byte (UInt8.ofNat (n / 16777216)) l
  rw [UInt8.toNat_ofNat_of_lt' (by show _ < 256; omega)] at e1 e2 e3 e4
  have := number_add 8 _ e1 (number_add 8 _ e2 (number_add 8 _ e3 e4))
  refine this.trans ?_
  congr 2
  omega

/-- Every content has a gzip file of one member. -/
theorem member_store (d : Bytes) : member (store d) = some (d, []) := by
  have hb := blocks_store (d.length / 65535) d [] (le32 (crc32 d) ++ le32 (d.length % 2 ^ 32)) (d.length / 65535 + 1)
    (by omega) (by omega) (by omega)
  have h1 := number_le32 (crc32_lt d) (le32 (d.length % 2 ^ 32))
  have h2 := number_le32 (n := d.length % 2 ^ 32) (by omega) []
  rw [List.append_nil] at h2 hb
  refine member_any (n := d.length / 65535 + 1) (s := ⟨[], []⟩) ?_
  refine bind_some.2 ⟨0x8B1F, ⟨[], 8 :: 0 :: _⟩, by rfl, ?_⟩
  refine bind_some.2 ⟨8, ⟨[], 0 :: _⟩, by rfl, ?_⟩
  refine bind_some.2 ⟨0, ⟨[], _⟩, by rfl, ?_⟩
  refine bind_some.2 ⟨_, ⟨[], _⟩, by rfl, ?_⟩
  rw [if_pos ⟨rfl, rfl⟩]
  refine bind_some.2 ⟨(), _, by rfl, bind_some.2 ⟨(), _, by rfl, bind_some.2 ⟨(), _, by rfl, bind_some.2 ⟨(), _, by rfl, ?_⟩⟩⟩⟩
  refine bind_some.2 ⟨_, _, hb, bind_some.2 ⟨(), _, rfl, bind_some.2 ⟨_, _, h1, bind_some.2 ⟨_, _, h2, ?_⟩⟩⟩⟩
  rw [List.reverse_reverse, List.length_reverse, if_pos ⟨rfl, rfl⟩]
  rfl

end Atop.Gzip
