import Verif.Proofs.Zlib
/-!
# Writing zlib streams without compression (`zlib.compress(d, 0)` in one form)

Used to show that every content has a zlib stream, so that the theorems about logs in the zlib format speak about
logs of any content.
-/

namespace Atop.Deflate

/-- Little-endian 16-bit number. -/
def le16 (n : Nat) : Bytes := [UInt8.ofNat (n % 256), UInt8.ofNat (n / 256)]

/-- Big-endian 32-bit number. -/
def be32 (n : Nat) : Bytes :=
  [UInt8.ofNat (n / 16777216), UInt8.ofNat (n / 65536 % 256), UInt8.ofNat (n / 256 % 256), UInt8.ofNat (n % 256)]

/-- `k` stored blocks of 65535 bytes, then a last one with the rest. -/
def storeBlocks : Nat → Bytes → Bytes
  | 0, d => 1 :: (le16 d.length ++ (le16 (65535 - d.length) ++ d))
  | k + 1, d => 0 :: (le16 65535 ++ (le16 0 ++ (d.take 65535 ++ storeBlocks k (d.drop 65535))))

/-- A zlib stream with content `d`. -/
def store (d : Bytes) : Bytes := 120 :: 1 :: (storeBlocks (d.length / 65535) d ++ be32 (adler32 d))

theorem number_byte (x : UInt8) (l : Bytes) : number 8 ⟨[], x :: l⟩ = some (x.toNat, ⟨[], l⟩) := by
  have h : ∀ i : Fin 256, i.val = (i.val.testBit 0).toNat + 2 * ((i.val.testBit 1).toNat + 2 * ((i.val.testBit 2).toNat +
      2 * ((i.val.testBit 3).toNat + 2 * ((i.val.testBit 4).toNat + 2 * ((i.val.testBit 5).toNat + 2 *
      ((i.val.testBit 6).toNat + 2 * ((i.val.testBit 7).toNat + 2 * 0))))))) := by decide +kernel
  have := h ⟨x.toNat, x.toNat_lt⟩
  simp only at this
  rw [show some (x.toNat, (⟨[], l⟩ : St)) = some (_, ⟨[], l⟩) from by rw [this]]
  rfl

theorem number_add {b : Nat} {y : Nat} {s2 : St} : ∀ (a x : Nat) {s s1 : St}, number a s = some (x, s1) →
    number b s1 = some (y, s2) → number (a + b) s = some (x + 2 ^ a * y, s2)
  | 0, x, s, s1, h, h' => by
    cases h
    rw [Nat.zero_add, h']; simp
  | a + 1, x, s, s1, h, h' => by
    obtain ⟨t, u, h1, h2⟩ := bind_some.1 h
    obtain ⟨z, w, h3, h4⟩ := bind_some.1 h2
    rw [pure_eq] at h4
    have h5 := number_add a z h3 (by cases h4; exact h')
    rw [show a + 1 + b = (a + b) + 1 by omega]
    refine bind_some.2 ⟨t, u, h1, bind_some.2 ⟨_, _, h5, ?_⟩⟩
    cases h4
    rw [pure_eq]
    congr 2
    rw [Nat.pow_succ, Nat.mul_add, Nat.mul_comm (2 ^ a) 2, Nat.mul_assoc]
    omega

theorem number_le16 {n : Nat} (hn : n < 65536) (l : Bytes) : number 16 ⟨[], le16 n ++ l⟩ = some (n, ⟨[], l⟩) := by
  have := number_add 8 _ (number_byte (UInt8.ofNat (n % 256)) (UInt8.ofNat (n / 256) :: l)) (number_byte _ _)
  rw [show (16 : Nat) = 8 + 8 from rfl]
  simp only [le16, List.cons_append, List.nil_append]
  rw [this]
  congr 2
  rw [UInt8.toNat_ofNat_of_lt' (by show _ < 256; omega), UInt8.toNat_ofNat_of_lt' (by show _ < 256; omega)]
  omega

theorem takeBytes_append (d t : Bytes) : takeBytes d.length ⟨[], d ++ t⟩ = some (d, ⟨[], t⟩) := by
  unfold takeBytes
  rw [if_pos (by simp)]
  simp

theorem storedBlock_eq (bs : List Bool) (d out t : Bytes) (hd : d.length ≤ 65535) :
    storedBlock out ⟨bs, le16 d.length ++ (le16 (65535 - d.length) ++ (d ++ t))⟩ = some (d.reverse ++ out, ⟨[], t⟩) := by
  refine bind_some.2 ⟨(), _, rfl, bind_some.2 ⟨_, _, number_le16 (by omega) _, bind_some.2 ⟨_, _,
    number_le16 (by omega) _, ?_⟩⟩⟩
  rw [if_pos (by omega)]
  exact bind_some.2 ⟨_, _, takeBytes_append d t, rfl⟩

theorem blocks_stored {x : UInt8} {final : Bool} (hx : x = if final then 1 else 0) (n : Nat) (out o : Bytes) (l : Bytes)
    (s : St) (h : storedBlock out ⟨[false, false, false, false, false], l⟩ = some (o, s)) :
    blocks (n + 1) out ⟨[], x :: l⟩ = (if final then pure o else blocks n o) s := by
  have h1 : bit ⟨[], x :: l⟩ = some (final, ⟨[false, false, false, false, false, false, false], l⟩) := by
    subst hx; cases final <;> rfl
  have h2 : number 2 ⟨[false, false, false, false, false, false, false], l⟩ =
      some (0, ⟨[false, false, false, false, false], l⟩) := rfl
  have h3 : block 0 n out ⟨[false, false, false, false, false], l⟩ = some (o, s) := h
  show (bit >>= _) _ = _
  rw [bind_some_of h1, bind_some_of h2, bind_some_of h3]

theorem blocks_store (k : Nat) : ∀ (d out t : Bytes) (n : Nat), d.length - 65535 * k < 65535 →
    65535 * k ≤ d.length → k < n →
    blocks n out ⟨[], storeBlocks k d ++ t⟩ = some (d.reverse ++ out, ⟨[], t⟩) := by
  induction k with
  | zero =>
    intro d out t n hd _ hn
    obtain ⟨n, rfl⟩ : ∃ m, n = m + 1 := ⟨n - 1, by omega⟩
    simp only [storeBlocks, List.cons_append, List.append_assoc]
    rw [blocks_stored (x := 1) (final := true) rfl n out _ _ _ (storedBlock_eq _ d out t (by omega))]
    rfl
  | succ k ih =>
    intro d out t n hd hk hn
    obtain ⟨n, rfl⟩ : ∃ m, n = m + 1 := ⟨n - 1, by omega⟩
    simp only [storeBlocks, List.cons_append, List.append_assoc]
    have hl : (d.take 65535).length = 65535 := by rw [List.length_take]; omega
    have hb := storedBlock_eq [false, false, false, false, false] (d.take 65535) out (storeBlocks k (d.drop 65535) ++ t)
      (by omega)
    rw [hl, Nat.sub_self] at hb
    rw [blocks_stored (x := 0) (final := false) rfl n out _ _ _ hb, if_neg (by simp)]
    have ih := ih (d.drop 65535) ((d.take 65535).reverse ++ out) t n (by
      rw [List.length_drop]; omega) (by rw [List.length_drop]; omega) (by omega)
    rw [ih, ← List.append_assoc, ← List.reverse_append, List.take_append_drop]

theorem adler32_lt (d : Bytes) : adler32 d < 4294967296 := by
  have key : ∀ (d : Bytes) (p : Nat × Nat), p.1 < 65521 → p.2 < 65521 →
      (d.foldl (fun (ab : Nat × Nat) x => ((ab.1 + x.toNat) % 65521, (ab.2 + (ab.1 + x.toNat)) % 65521)) p).1 < 65521 ∧
      (d.foldl (fun (ab : Nat × Nat) x => ((ab.1 + x.toNat) % 65521, (ab.2 + (ab.1 + x.toNat)) % 65521)) p).2 < 65521 := by
    intro d
    induction d with
    | nil => intro p h1 h2; exact ⟨h1, h2⟩
    | cons x r ih => intro p h1 h2; exact ih _ (Nat.mod_lt _ (by omega)) (Nat.mod_lt _ (by omega))
  have := key d (1, 0) (by decide) (by decide)
  unfold adler32
  simp only
  omega

/-- Every content has a zlib stream. -/
theorem unpack_store (d : Bytes) : unpack (store d) = some (d, []) := by
  have h78 : number 8 ⟨[], store d⟩ = some (120, ⟨[], 1 :: (storeBlocks (d.length / 65535) d ++ be32 (adler32 d))⟩) :=
    number_byte _ _
  have h01 := number_byte 1 (storeBlocks (d.length / 65535) d ++ be32 (adler32 d))
  have hb := blocks_store (d.length / 65535) d [] (be32 (adler32 d)) (d.length / 65535 + 1)
    (by omega) (by omega) (by omega)
  have ha := adler32_lt d
  have e1 := number_byte (UInt8.ofNat (adler32 d / 16777216)) (UInt8.ofNat (adler32 d / 65536 % 256) ::
    UInt8.ofNat (adler32 d / 256 % 256) :: UInt8.ofNat (adler32 d % 256) :: [])
  have e2 := number_byte (UInt8.ofNat (adler32 d / 65536 % 256))
    (UInt8.ofNat (adler32 d / 256 % 256) :: UInt8.ofNat (adler32 d % 256) :: [])
  have e3 := number_byte (UInt8.ofNat (adler32 d / 256 % 256)) (UInt8.ofNat (adler32 d % 256) :: [])
  have e4 := number_byte (UInt8.ofNat (adler32 d % 256)) []
  rw [UInt8.toNat_ofNat_of_lt' (by show _ < 256; omega)] at e1 e2 e3 e4
  refine stream_any (n := d.length / 65535 + 1) (s := ⟨[], []⟩) ?_
  refine bind_some.2 ⟨_, _, h78, bind_some.2 ⟨_, _, h01, ?_⟩⟩
  rw [if_pos (by decide)]
  refine bind_some.2 ⟨_, _, hb, bind_some.2 ⟨(), _, rfl, bind_some.2 ⟨_, _, e1, bind_some.2 ⟨_, _, e2,
    bind_some.2 ⟨_, _, e3, bind_some.2 ⟨_, _, e4, ?_⟩⟩⟩⟩⟩⟩
  rw [List.append_nil, List.reverse_reverse, if_pos (by omega)]
  rfl

theorem storeBlocks_length : ∀ (k : Nat) (d : Bytes), 65535 * k ≤ d.length →
    (storeBlocks k d).length = 5 * (k + 1) + d.length
  | 0, d, _ => by simp [storeBlocks, le16]; omega
  | k + 1, d, h => by
    have := storeBlocks_length k (d.drop 65535) (by rw [List.length_drop]; omega)
    rw [List.length_drop] at this
    simp only [storeBlocks, le16, List.length_cons, List.length_append, List.length_nil, List.length_take, this]
    omega

theorem store_length (d : Bytes) : (store d).length = d.length + 5 * (d.length / 65535) + 11 := by
  simp only [store, List.length_cons, List.length_append, storeBlocks_length _ d (by omega : 65535 * (d.length / 65535) ≤ d.length),
    be32, List.length_nil]
  omega

end Atop.Deflate
