import Verif.Proofs.Readers
/-!
# Versions and `get_header`
-/

namespace Atop
open Spec

theorem splitVersion_eq (a : Nat) : splitVersion a = (a / 256 % 128, a % 256) := by
  unfold splitVersion
  have h1 : (a >>> 8) = a / 256 := by rw [Nat.shiftRight_eq_div_pow]
  have h2 : ∀ x, x &&& 0x7F = x % 128 := fun x => Nat.and_two_pow_sub_one_eq_mod x 7
  have h3 : ∀ x, x &&& 0xFF = x % 256 := fun x => Nat.and_two_pow_sub_one_eq_mod x 8
  rw [h1, h2, h3]

theorem splitVersion_u16 (b : Bytes) : splitVersion (u16 b 4) = (major b, minor b) := by
  rw [splitVersion_eq]
  have := u8_lt b 4; have := u8_lt b 5
  unfold major minor u16
  simp only [Nat.reduceAdd]
  have h1 : (u8 b 4 + 256 * u8 b 5) / 256 = u8 b 5 := by omega
  have h2 : (u8 b 4 + 256 * u8 b 5) % 256 = u8 b 4 := by omega
  rw [h1, h2]

theorem minor_lt (b : Bytes) : minor b < 256 := u8_lt b 4
theorem major_lt (b : Bytes) : major b < 128 := Nat.mod_lt _ (by decide)

/-! ## Version strings -/

theorem splitDot_nodot (a : PyStr) (h : 46 ∉ a) : splitDot a = [a] := by
  induction a with
  | nil => rfl
  | cons c cs ih =>
    simp only [List.mem_cons, not_or] at h
    unfold splitDot
    rw [if_neg (fun e => h.1 e.symm), ih h.2]

theorem splitDot_append (a b : PyStr) (h : 46 ∉ a) : splitDot (a ++ 46 :: b) = a :: splitDot b := by
  induction a with
  | nil => simp [splitDot]
  | cons c cs ih =>
    simp only [List.mem_cons, not_or] at h
    rw [List.cons_append, splitDot, if_neg (fun e => h.1 e.symm), ih h.2]

theorem digits_table : ∀ n < 256, pyParseNat (pyStrNat n) = .ok n ∧ 46 ∉ pyStrNat n := by decide +kernel

/-- `major, minor = map(int, text.split(".")[:2])` -/
def parseVersionText (s : PyStr) : Except Exc (Nat × Nat) :=
  match (splitDot s).take 2 with
  | [a, b] => do return (← pyParseNat a, ← pyParseNat b)
  | _ => .error (.valueError .badInt)

theorem parse_versionString (v : Nat × Nat) (h1 : v.1 < 256) (h2 : v.2 < 256) :
    parseVersionText (versionString v) = .ok v := by
  obtain ⟨p1, n1⟩ := digits_table v.1 h1
  obtain ⟨p2, n2⟩ := digits_table v.2 h2
  unfold parseVersionText versionString
  rw [List.append_assoc, List.singleton_append, splitDot_append _ _ n1, splitDot_nodot _ n2]
  show (do return (← pyParseNat _, ← pyParseNat _) : Except Exc (Nat × Nat)) = _
  rw [p1, p2]; rfl

theorem versionString_inj {v w : Nat × Nat} (hv1 : v.1 < 256) (hv2 : v.2 < 256) (hw1 : w.1 < 256)
    (hw2 : w.2 < 256) (h : versionString v = versionString w) : v = w := by
  have a := parse_versionString v hv1 hv2
  have b := parse_versionString w hw1 hw2
  rw [h, b] at a
  cases a; rfl

theorem table_versionString : ∀ r ∈ table, r.version = versionString (r.major, r.minor) ∧ r.major < 256 ∧
    r.minor < 256 ∧ ((r.major ≥ 2 ∧ r.minor ≥ 3) ↔ r.version ≠ py!"1.26") ∧
    ((r.major ≥ 2 ∧ r.minor ≥ 11) ↔ r.cstat.isSome) ∧ r.record < 2147483648 ∧
    (0 < r.tstat ∧ 32 ≤ r.record ∧ 0 < r.sstat) ∧ (∀ n ∈ r.cstat, 20 ≤ n ∧ n < 2147483648 ∧ 88 ≤ r.record) := by
  decide +kernel

theorem newest_facts : Facts defaultHeader newest :=
  facts_all (V2_12.Header, newest) (by unfold versions table newest; simp)

theorem find_zip {p : PyStr → Bool} : ∀ (cs : List HeaderClass) (rs : List Row), cs.length = rs.length →
    (∀ q ∈ cs.zip rs, q.1.supportedVersion = q.2.version) →
    (cs.find? (fun c => p c.supportedVersion) = none ∧ rs.find? (fun r => p r.version) = none) ∨
    ∃ c r, (c, r) ∈ cs.zip rs ∧ cs.find? (fun c => p c.supportedVersion) = some c ∧
      rs.find? (fun r => p r.version) = some r
  | [], [], _, _ => .inl ⟨rfl, rfl⟩
  | c :: cs, r :: rs, hl, hq => by
    have hcr := hq (c, r) (by simp)
    rw [List.find?_cons, List.find?_cons]
    cases hp : p c.supportedVersion with
    | true => exact .inr ⟨c, r, by simp, by simp, by rw [← hcr, hp]⟩
    | false =>
      rw [← hcr, hp]
      rcases find_zip cs rs (by simpa using hl) (fun q hqm => hq q (by simp [hqm])) with h | ⟨c', r', h1, h2, h3⟩
      · exact .inl h
      · exact .inr ⟨c', r', by simp [h1], h2, h3⟩

/-- The version lookup agrees with the table lookup by number. -/
theorem headerByVersion_eq (M m : Nat) (hM : M < 256) (hm : m < 256) :
    (headerByVersion (versionString (M, m)) = none ∧ rowFor M m = none) ∨
    ∃ c r, (c, r) ∈ versions.zip table ∧ headerByVersion (versionString (M, m)) = some c ∧ rowFor M m = some r ∧
      r.major = M ∧ r.minor = m := by
  have hfun : rowFor M m = table.find? (fun r => r.version == versionString (M, m)) := by
    unfold rowFor
    have : ∀ l : List Row, (∀ r ∈ l, r ∈ table) →
        l.find? (fun r => r.major == M && r.minor == m) = l.find? (fun r => r.version == versionString (M, m)) := by
      intro l
      induction l with
      | nil => intro _; rfl
      | cons r rs ih =>
        intro hl
        obtain ⟨e1, e2, e3, _⟩ := table_versionString r (hl r (by simp))
        have hb : (r.major == M && r.minor == m) = (r.version == versionString (M, m)) := by
          rw [Bool.eq_iff_iff]
          simp only [Bool.and_eq_true, beq_iff_eq]
          constructor
          · rintro ⟨rfl, rfl⟩; exact e1
          · intro h
            have := versionString_inj e2 e3 hM hm (e1.symm.trans h)
            injection this with a b
            exact ⟨a, b⟩
        rw [List.find?_cons, List.find?_cons, hb, ih (fun x hx => hl x (by simp [hx]))]
    exact this table (fun _ h => h)
  rw [hfun]
  rcases find_zip (p := fun s => s == versionString (M, m)) versions table (by decide)
      (fun q hq => (facts_all q hq).version) with h | ⟨c, r, h1, h2, h3⟩
  · exact .inl h
  · refine .inr ⟨c, r, h1, h2, h3, ?_⟩
    have hr : r ∈ table := List.mem_of_find?_eq_some h3
    have hv := List.find?_some h3
    simp only [beq_iff_eq] at hv
    obtain ⟨e1, e2, e3, _⟩ := table_versionString r hr
    have := versionString_inj e2 e3 hM hm (e1.symm.trans hv)
    injection this with a b
    exact ⟨a, b⟩

/-! ## Compatibility check -/

theorem header_version_of_none {c r} (F : Facts c r) (b : Bytes) :
    Header.version ⟨c, b, none⟩ = .ok (major b, minor b) := by
  unfold Header.version
  dsimp only
  rw [show (Header.inst ⟨c, b, none⟩).intAttr py!"aversion" = .ok (u16 b 4 : Int) from
    intAttr_u16 (t := (Header.inst ⟨c, b, none⟩).ty) F.aversion b]
  show Except.ok (splitVersion (Int.toNat (u16 b 4 : Int))) = _
  rw [Int.toNat_natCast, splitVersion_u16]

theorem i32_eq_iff (b : Bytes) (o n : Nat) (hn : n < 2147483648) : i32 b o = (n : Int) ↔ u32 b o = n := by
  unfold i32 signed
  have := u32_lt b o
  split <;> omega

/-- The entries of the size list, from the bytes of the header. -/
def sizeRows (r : Row) (hb : Bytes) : List (PyStr × Int × Int) :=
  [(py!"Header", (u16 hb 10 : Int), 480), (py!"Record", (u16 hb 12 : Int), (r.record : Int)),
    (py!"SStat", (u32 hb 28 : Int), (r.sstat : Int)),
    (if r.version = py!"1.26" then py!"PStat" else py!"TStat", (u32 hb 32 : Int), (r.tstat : Int))]

/-- The last entry, for versions with cgroups. -/
def cgroupRow (r : Row) (w : Bool) (hb : Bytes) : List (PyStr × Int × Int) :=
  match w, r.cstat with
  | true, some n => [(py!"CStat", i32 hb 456, (n : Int))]
  | _, _ => []

theorem check_eq {c r} (F : Facts c r) (b : Bytes) (k) (hb : b.length = 480) (v : Nat × Nat)
    (hv : Header.version ⟨c, b, k⟩ = .ok v) (hc : ∀ n, r.cstat = some n → n < 2147483648) :
    Header.checkCompatibility ⟨c, b, k⟩ =
      if ¬ ((v.1 ≥ 2 ∧ v.2 ≥ 3) ↔ r.version ≠ py!"1.26") then .error .attributeError
      else if (v.1 ≥ 2 ∧ v.2 ≥ 11) ∧ r.cstat = none then .error .attributeError
      else if lengthsMatch r (decide (v.1 ≥ 2 ∧ v.2 ≥ 11)) b then .ok ()
      else .error (.valueError (.incompatible (incompatibleText
        (sizeRows r b ++ cgroupRow r (decide (v.1 ≥ 2 ∧ v.2 ≥ 11)) b)))) := by
  have e1 : (Header.inst ⟨c, b, k⟩).intAttr py!"rawheadlen" = .ok (u16 b 10 : Int) :=
    intAttr_u16 (t := (Header.inst ⟨c, b, k⟩).ty) F.rawheadlen b
  have e2 : (Header.inst ⟨c, b, k⟩).intAttr py!"rawreclen" = .ok (u16 b 12 : Int) :=
    intAttr_u16 (t := (Header.inst ⟨c, b, k⟩).ty) F.rawreclen b
  have e3 : (Header.inst ⟨c, b, k⟩).intAttr py!"sstatlen" = .ok (u32 b 28 : Int) :=
    intAttr_u32 (t := (Header.inst ⟨c, b, k⟩).ty) F.sstatlen b
  have e4 : (Header.inst ⟨c, b, k⟩).intAttr py!"tstatlen" =
      if r.version = py!"1.26" then .error .attributeError else .ok (u32 b 32 : Int) := by
    have := F.tstatlen
    split
    · rename_i h; rw [if_pos h] at this; exact intAttr_none this b
    · rename_i h; rw [if_neg h] at this; exact intAttr_u32 (t := (Header.inst ⟨c, b, k⟩).ty) this b
  have e5 : (Header.inst ⟨c, b, k⟩).intAttr py!"pstatlen" =
      if r.version = py!"1.26" then .ok (u32 b 32 : Int) else .error .attributeError := by
    have := F.pstatlen
    split
    · rename_i h; rw [if_pos h] at this; exact intAttr_u32 (t := (Header.inst ⟨c, b, k⟩).ty) this b
    · rename_i h; rw [if_neg h] at this; exact intAttr_none this b
  have e6 : (Header.inst ⟨c, b, k⟩).intAttr py!"cstatlen" =
      if r.cstat = none then .error .attributeError else .ok (i32 b 456) := by
    have := F.cstatlen
    cases hr : r.cstat with
    | none => rw [hr] at this; exact intAttr_none this b
    | some n =>
      rw [hr] at this
      exact intAttr_i32 (t := (Header.inst ⟨c, b, k⟩).ty) this b (by show 456 + 4 ≤ b.length; omega)
  have hs : Header.sizeChecks ⟨c, b, k⟩ =
      if ¬ ((v.1 ≥ 2 ∧ v.2 ≥ 3) ↔ r.version ≠ py!"1.26") then .error .attributeError
      else if (v.1 ≥ 2 ∧ v.2 ≥ 11) ∧ r.cstat = none then .error .attributeError
      else .ok (sizeRows r b ++ cgroupRow r (decide (v.1 ≥ 2 ∧ v.2 ≥ 11)) b) := by
    unfold Header.sizeChecks sizeRows cgroupRow
    simp only [e1, e2, e3, e4, e5, e6, hv, F.size, F.record, F.sstat, F.tstat]
    have cs := F.cstat
    by_cases h3 : v.1 ≥ 2 ∧ v.2 ≥ 3 <;> by_cases h11 : v.1 ≥ 2 ∧ v.2 ≥ 11 <;>
      by_cases h126 : r.version = py!"1.26" <;> cases hr : r.cstat <;> cases hcc : c.CStat <;>
      simp only [hr, hcc, Option.map_some, Option.map_none, reduceCtorEq, Option.some.injEq] at cs <;>
      (first | have h3 := eq_false h3 | have h3 := eq_true h3) <;>
      (first | have h11 := eq_false h11 | have h11 := eq_true h11) <;>
      simp only [bind, Except.bind, pure, Except.pure] <;>
      simp only [h3, h11, decide_true, decide_false] <;> simp [h126, cs]
  unfold Header.checkCompatibility
  rw [hs]
  split
  · rfl
  split
  · rfl
  rename_i hn11
  show (if _ then _ else _) = _
  have hany : ((sizeRows r b ++ cgroupRow r (decide (v.1 ≥ 2 ∧ v.2 ≥ 11)) b).any (fun p => p.2.1 != p.2.2) = true) ↔
      ¬ lengthsMatch r (decide (v.1 ≥ 2 ∧ v.2 ≥ 11)) b := by
    unfold sizeRows cgroupRow lengthsMatch
    cases hr : r.cstat with
    | none =>
      by_cases h11 : v.1 ≥ 2 ∧ v.2 ≥ 11
      · exact absurd ⟨h11, hr⟩ hn11
      · simp only [h11, decide_false]
        simp
        omega
    | some n =>
      have := hc n hr
      by_cases h11 : v.1 ≥ 2 ∧ v.2 ≥ 11
      · simp only [h11]
        simp [i32_eq_iff b 456 n this]
        omega
      · simp only [h11, decide_false]
        simp
        omega
  by_cases hm : lengthsMatch r (decide (v.1 ≥ 2 ∧ v.2 ≥ 11)) b
  · rw [if_neg (fun h => hany.mp h hm), if_pos hm]; rfl
  · rw [if_pos (hany.mpr hm), if_neg hm]

/-! ## `get_header` -/

/-- Class used for a header. -/
def classFor (hb : Bytes) : HeaderClass := (headerByVersion (versionString (major hb, minor hb))).getD defaultHeader

/-- Version cache of the object `get_header` returns when no check is made. -/
def cacheOf (hb : Bytes) : Option (Nat × Nat) :=
  if versionString (major hb, minor hb) ≠ defaultHeader.supportedVersion ∧ (rowFor (major hb) (minor hb)).isSome then none
  else some (major hb, minor hb)

/-- What `get_header` makes of the 480 (zero padded) bytes. -/
def headerOf (check : Bool) (hb : Bytes) : Except Exc Header :=
  if u32 hb 0 ≠ magic then .error (.valueError (.badMagic (magicText (u32 hb 0))))
  else if check = false then .ok ⟨classFor hb, hb, cacheOf hb⟩
  else if tooOld hb then .error .attributeError
  else if lengthsMatch (usedRow hb) (readsCGroups hb) hb then .ok ⟨classFor hb, hb, some (major hb, minor hb)⟩
  else .error (.valueError (.incompatible (incompatibleText
        (sizeRows (usedRow hb) hb ++ cgroupRow (usedRow hb) (readsCGroups hb) hb))))

theorem classFor_facts (hb : Bytes) : Facts (classFor hb) (usedRow hb) ∧
    (rowFor (major hb) (minor hb) = none → classFor hb = defaultHeader ∧ usedRow hb = newest) ∧
    (∀ r, rowFor (major hb) (minor hb) = some r → r ∈ table ∧ usedRow hb = r ∧ r.major = major hb ∧ r.minor = minor hb ∧
      (classFor hb, r) ∈ versions.zip table ∧ headerByVersion (versionString (major hb, minor hb)) = some (classFor hb)) := by
  unfold classFor usedRow
  rcases headerByVersion_eq (major hb) (minor hb) (by have := major_lt hb; omega) (minor_lt hb) with
    ⟨h1, h2⟩ | ⟨c, r, h1, h2, h3, h4, h5⟩
  · rw [h1, h2]
    exact ⟨newest_facts, fun _ => ⟨rfl, rfl⟩, nofun⟩
  · rw [h2, h3]
    simp only [Option.getD_some]
    refine ⟨facts_all _ h1, nofun, ?_⟩
    intro r' hr'
    obtain rfl : r = r' := Option.some.inj hr'
    exact ⟨List.mem_of_find?_eq_some h3, rfl, h4, h5, h1, trivial⟩

theorem usedRow_mem (hb : Bytes) : usedRow hb ∈ table := by
  unfold usedRow
  cases h : rowFor (major hb) (minor hb) with
  | none => decide
  | some r => exact List.mem_of_find?_eq_some h

theorem version_some (c : HeaderClass) (b : Bytes) (v) : Header.version ⟨c, b, some v⟩ = .ok v := rfl

theorem headerOf_check (hb : Bytes) (hl : hb.length = 480) (k) (hk : k = none ∨ k = some (major hb, minor hb)) :
    Header.checkCompatibility ⟨classFor hb, hb, k⟩ =
      if tooOld hb then .error .attributeError
      else if lengthsMatch (usedRow hb) (readsCGroups hb) hb then .ok () else .error (.valueError (.incompatible (incompatibleText
        (sizeRows (usedRow hb) hb ++ cgroupRow (usedRow hb) (readsCGroups hb) hb)))) := by
  obtain ⟨F, hnone, hsome⟩ := classFor_facts hb
  have hv : Header.version ⟨classFor hb, hb, k⟩ = .ok (major hb, minor hb) := by
    rcases hk with rfl | rfl
    · exact header_version_of_none F hb
    · rfl
  have hm := usedRow_mem hb
  rw [check_eq F hb k hl _ hv (fun n hn => ((table_versionString _ hm).2.2.2.2.2.2.2 n hn).2.1)]
  have hcg : readsCGroups hb = decide ((major hb, minor hb).1 ≥ 2 ∧ (major hb, minor hb).2 ≥ 11) := rfl
  rw [hcg]
  dsimp only
  by_cases hr : rowFor (major hb) (minor hb) = none
  · have e := (hnone hr).2
    rw [e]
    by_cases h3 : (2 ≤ major hb ∧ 3 ≤ minor hb)
    · rw [if_neg (by simp [newest, h3]), if_neg (by simp [newest]), if_neg (show ¬ tooOld hb by simp [tooOld, h3])]
    · rw [if_pos (by simp [newest]; omega), if_pos (show tooOld hb by simp [tooOld, hr]; omega)]
  · obtain ⟨r, hr⟩ := Option.ne_none_iff_exists'.mp hr
    obtain ⟨hm', he, hM, hmi, -, -⟩ := hsome r hr
    obtain ⟨-, -, -, t1, t2, -⟩ := table_versionString r hm'
    rw [he, if_neg (by rw [← t1, hM, hmi]; simp), if_neg, if_neg (show ¬ tooOld hb by simp [tooOld, hr])]
    rintro ⟨a, b⟩
    rw [← hM, ← hmi] at a
    have := t2.mp a
    rw [b] at this
    cases this

theorem getHeader_eq (check : Bool) (s : Stream) :
    getHeader check s = match Stream.readinto 480 s with
      | (.ok b, s') => (headerOf check b, s')
      | (.error e, s') => (.error e, s') := by
  unfold getHeader
  rw [newest_facts.size, Rd.bind_eq]
  rw [Stream.readinto_eq]
  have hlen : ∀ g s', Stream.read 480 s = (.ok g, s') → (g ++ List.replicate (480 - g.length) (0 : UInt8)).length = 480 := by
    intro g s' hr
    unfold Stream.read at hr
    split at hr
    · cases hr; simp; omega
    · split at hr
      · cases hr; simp; omega
      · cases hr
  rcases hr : Stream.read 480 s with ⟨e | g, s1⟩
  · rfl
  · have hl := hlen g s1 hr
    dsimp only
    generalize g ++ List.replicate (480 - g.length) (0 : UInt8) = b at hl ⊢
    have em : (Header.inst ⟨defaultHeader, b, none⟩).intAttr py!"magic" = .ok (u32 b 0 : Int) :=
      intAttr_u32 (t := (Header.inst ⟨defaultHeader, b, none⟩).ty) newest_facts.magic b
    have ev := header_version_of_none newest_facts b
    have esv : Header.semanticVersion ⟨defaultHeader, b, none⟩ = .ok (versionString (major b, minor b)) := by
      unfold Header.semanticVersion; rw [ev]; rfl
    have elat : Header.latched ⟨defaultHeader, b, none⟩ = ⟨defaultHeader, b, some (major b, minor b)⟩ := by
      unfold Header.latched; rw [ev]
    simp only [Rd.bind_eq, Rd.lift_eq, em]
    unfold headerOf
    by_cases hmagic : u32 b 0 = magic
    · rw [if_neg (by rw [hmagic]; simp [MAGIC, magic]), if_neg (by simp [hmagic])]
      simp only [Rd.bind_eq, Rd.lift_eq, esv, elat]
      obtain ⟨F, hnone, hsome⟩ := classFor_facts b
      -- the header object after dispatch
      have hdisp : reviewHeader ⟨defaultHeader, b, some (major b, minor b)⟩ (versionString (major b, minor b)) =
          .ok ⟨classFor b, b, cacheOf b⟩ := by
        unfold reviewHeader
        unfold cacheOf
        cases hrow : rowFor (major b) (minor b) with
        | none =>
          have hn : headerByVersion (versionString (major b, minor b)) = none := by
            rcases headerByVersion_eq (major b) (minor b) (by have := major_lt b; omega) (minor_lt b) with
              ⟨h1, h2⟩ | ⟨c, r, h1, h2, h3, h4, h5⟩
            · exact h1
            · rw [hrow] at h3; cases h3
          rw [(hnone hrow).1, hn]; simp
        | some r =>
          obtain ⟨hm', he, hM, hmi, hz, hby⟩ := hsome r hrow
          rw [hby]
          have hsz : (classFor b).size = 480 := F.size
          by_cases hd : versionString (major b, minor b) = defaultHeader.supportedVersion
          · rw [if_neg (by simp [hd])]
            rw [hd] at hby
            have : headerByVersion defaultHeader.supportedVersion = some defaultHeader := by rfl
            rw [this] at hby
            rw [← Option.some.inj hby]
            simp [hd]
          · rw [if_pos hd]
            simp only [hsz]
            rw [if_neg (by omega), List.take_of_length_le (by omega)]
            simp [hd]
      rw [hdisp]
      dsimp only
      cases check with
      | false => rfl
      | true =>
        have hk : cacheOf b = none ∨ cacheOf b = some (major b, minor b) := by
          unfold cacheOf; split
          · exact .inl rfl
          · exact .inr rfl
        rw [if_pos rfl, Rd.bind_eq, Rd.lift_eq, headerOf_check b hl _ hk, if_neg (show ¬ (true = false) by simp)]
        have hv : Header.version ⟨classFor b, b, cacheOf b⟩ = .ok (major b, minor b) := by
          rcases hk with e | e <;> rw [e]
          · exact header_version_of_none F b
          · rfl
        have hlat : Header.latched ⟨classFor b, b, cacheOf b⟩ = ⟨classFor b, b, some (major b, minor b)⟩ := by
          unfold Header.latched; rw [hv]
        rw [hlat]
        by_cases ho : tooOld b
        · rw [if_pos ho, if_pos ho]
        · rw [if_neg ho, if_neg ho]
          by_cases hm : lengthsMatch (usedRow b) (readsCGroups b) b
          · rw [if_pos hm, if_pos hm]; rfl
          · rw [if_neg hm, if_neg hm]
    · rw [if_pos (by simp only [ne_eq]; intro h; apply hmagic; unfold MAGIC at h; unfold magic; omega),
        if_pos (by simp [hmagic]), Rd.raise_eq, Int.toNat_natCast]

end Atop
