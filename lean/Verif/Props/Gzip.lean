import Verif.Proofs.Gzip
import Verif.Props.Options
/-!
# C60: logs in gzip files
-/

namespace Atop
open Spec Gzip

/-- **C60** Every content has a gzip file; it may be split over several members, joined, with the same effect. -/
theorem C60_every_content : (∀ d, ∃ raw, member raw = some (d, []) ∧ gunzip raw = some d) ∧
    ∀ raw d raw' d', member raw = some (d, []) → member raw' = some (d', []) → gunzip (raw ++ raw') = some (d ++ d') := by
  refine ⟨fun d => ⟨_, member_store d, gunzip_single (member_store d)⟩, fun raw d raw' d' h h' => ?_⟩
  rw [gunzip_append h raw' ?_, gunzip_single h']; rfl
  intro h0
  cases raw' with
  | nil => cases h0
  | cons x raw' =>
    simp only [List.head?_cons, Option.some.injEq] at h0
    subst h0
    have hne : ∀ x : UInt8, ∀ l n, (Deflate.number 16 ⟨[], 0 :: x :: l⟩) = some (n, ⟨[], l⟩) → n ≠ 0x8B1F := by
      intro x l n hn
      have e1 := Deflate.number_byte 0 (x :: l)
      have e2 := Deflate.number_byte x l
      have e := Deflate.number_add 8 _ e1 e2
      rw [hn] at e
      simp only [Option.some.injEq, Prod.mk.injEq] at e
      obtain ⟨e, -⟩ := e
      have : (0 : UInt8).toNat = 0 := rfl
      omega
    unfold member at h'
    split at h'
    · rename_i hs
      obtain ⟨id, s1, h1, h2⟩ := Deflate.bind_some.1 hs
      cases raw' with
      | nil => revert h1; intro h1; cases h1
      | cons x l =>
        have e1 := Deflate.number_byte 0 (x :: l)
        have e2 := Deflate.number_byte x l
        have e := Deflate.number_add 8 _ e1 e2
        rw [show 8 + 8 = 16 from rfl] at e
        have hid := hne x l _ e
        rw [e] at h1
        cases h1
        obtain ⟨me, s2, h1, h2⟩ := Deflate.bind_some.1 h2
        obtain ⟨fl, s3, h1, h2⟩ := Deflate.bind_some.1 h2
        obtain ⟨y, s4, h1, h2⟩ := Deflate.bind_some.1 h2
        rw [if_neg (fun hc => hid hc.1)] at h2
        cases h2
    · cases h'

/-- **C60** Cutting is noticed: a file of one member cut anywhere (but not before its first byte) is damaged; and whatever
the members, a cut file that is intact holds a beginning of the content. -/
theorem C60_cut_noticed :
    (∀ raw d, member raw = some (d, []) → ∀ k, 0 < k → k < raw.length → gunzip (raw.take k) = none) ∧
    (∀ raw d, gunzip raw = some d → ∀ k d', gunzip (raw.take k) = some d' → d' <+: d) := by
  refine ⟨fun raw d h k h0 hk => gunzip_cut h k h0 hk, fun raw d h k d' h' => ?_⟩
  exact gunzip_prefix _ _ (raw.drop k) (Nat.le_refl _) h' (by rw [List.take_append_drop]; exact h)

theorem opens_intact {raw c : Bytes} {s : Stream} (O : Opens raw s) (h : gunzip raw = some c) : s = { data := c } := by
  obtain ⟨d, p, sh⟩ := s
  obtain ⟨h1, h2⟩ := O.intact c h
  have h3 := O.start
  simp only at h1 h2 h3
  rw [h1, h2, h3]

/-- **C60** An intact gzip file is read exactly as its content would be from a plain file: same entries or same exception, for
every content. -/
theorem C60_intact (Z : Zlib) (o : Opts) {fs : FileSystem} {file : PyStr} (hz : usesGzip file = true) {raw c : Bytes}
    {s : Stream} (hf : fs file true = .ok s) (O : Opens raw s) (h : gunzip raw = some c) :
    parsePath Z fs o file = (parseFile Z o file { data := c }).1 := by
  have := opens_intact O h
  subst this
  unfold parsePath
  rw [hz, hf]
  rfl

/-- **C60** A log in a gzip file (of any number of members) is read back exactly. -/
theorem C60_round_trip {Z : Zlib} {r : Row} (hr : r ∈ table) {hb : Bytes} (H : ValidHeader r hb)
    {ws : List WSample} (W : ∀ w ∈ ws, w.Valid Z r) (rot : Bool) (max : Int) (hmax : (ws.length : Int) ≤ max)
    {raw : Bytes} (hraw : gunzip raw = some (hb ++ body r ws)) {s : Stream} (O : Opens raw s) :
    ∃ c, headerByVersion r.version = some c ∧
      (generateStatistics Z none rot max s).1 = ws.map (presented c) ∧ (generateStatistics Z none rot max s).2.1 = .returned := by
  have := opens_intact O hraw
  subst this
  obtain ⟨c, hc, e⟩ := C01_round_trip hr H W rot max hmax (s := { data := hb ++ body r ws }) (by simp [Stream.rest]) rfl
  exact ⟨c, hc, by rw [e], by rw [e]⟩

theorem completeWithin_prefix (r : Row) : ∀ (ws : List WSample) (k : Nat), completeWithin r ws k <+: ws
  | [], _ => List.prefix_refl _
  | w :: ws, k => by
    rw [completeWithin]
    split
    · exact (List.prefix_cons_inj w).mpr (completeWithin_prefix r ws _)
    · exact List.nil_prefix

/-- **C60** A log whose gzip file (of one member) was cut anywhere: complete samples from its beginning are yielded, then
`EOFError` or `OSError` is raised, whatever `raise_on_truncation` says; `parse_file` raises it too and prints nothing. -/
theorem C60_cut_log {Z : Zlib} {r : Row} (hr : r ∈ table) {hb : Bytes} (H : ValidHeader r hb)
    {ws : List WSample} (W : ∀ w ∈ ws, w.Valid Z r) (rot : Bool) (max : Int) (hmax : (ws.length : Int) < max)
    {raw : Bytes} (hraw : member raw = some (hb ++ body r ws, [])) (k : Nat) (h0 : 0 < k) (hk : k < raw.length)
    {s : Stream} (O : Opens (raw.take k) s) :
    ∃ c e, headerByVersion r.version = some c ∧ (e = .eofError ∨ e = .osError) ∧
      (∃ n, (generateStatistics Z none rot max s).1 = (ws.take n).map (presented c)) ∧
      (generateStatistics Z none rot max s).2.1 = .raised e ∧
      (ws.length < 86400 → ∀ (o : Opts) (file : PyStr), o.parseables = [] → (parseFile Z o file s).1 = .error e) := by
  have hcut := gunzip_cut hraw k h0 hk
  obtain ⟨hpre, hsh⟩ := O.cut hcut (raw.drop k) _ (by rw [List.take_append_drop]; exact gunzip_single hraw)
  obtain ⟨e, he, hex⟩ : ∃ e, (e = Exc.eofError ∨ e = Exc.osError) ∧ s.short = some e := by
    rcases hsh with h | h
    · exact ⟨_, .inl rfl, h⟩
    · exact ⟨_, .inr rfl, h⟩
  have hez : e ≠ .zlibError := by rcases he with rfl | rfl <;> decide
  have hrest : s.rest = s.data := by unfold Stream.rest; rw [O.start]; rfl
  rw [List.prefix_iff_eq_take] at hpre
  obtain ⟨c0, hc0, -⟩ := C01_round_trip hr H W rot max (by omega) (s := { data := hb ++ body r ws }) (by simp [Stream.rest]) rfl
  by_cases hl : 480 ≤ s.data.length
  · have hs : s.rest = hb ++ (body r ws).take (s.data.length - 480) := by
      rw [hrest, ← H.length]
      refine hpre.trans ?_
      rw [List.take_append, List.take_of_length_le (by rw [H.length]; exact hl)]
    obtain ⟨c, hc, hy, hend⟩ := C32_cut_container_reported hr H W (s.data.length - 480) rot max hmax e hez hs hex
    refine ⟨c, e, hc, he, ?_, hend, fun hw o file hp => ?_⟩
    · obtain ⟨n, hn⟩ : ∃ n, completeWithin r ws (s.data.length - 480) = ws.take n :=
        ⟨_, List.prefix_iff_eq_take.mp (completeWithin_prefix r ws _)⟩
      exact ⟨n, by rw [hy, hn]⟩
    · obtain ⟨-, -, -, hend'⟩ := C32_cut_container_reported hr H W (s.data.length - 480) false 86400 (by omega) e hez hs hex
      rcases hg : getHeader true s with ⟨e' | h, s'⟩
      · rw [parseFile_refused hg]
        rw [generate_none, hg] at hend'
        injection hend' with hend'
        rw [hend']
      · rw [parseFile_ok hg o file (.inl hp)]
        unfold docOf
        rw [hend']
        have hgn : generateStatistics Z none false 86400 s = generateStatistics Z (some h) false 86400 s' := by
          rw [generate_none, hg]
        obtain ⟨h1, -⟩ := getHeader_ok hg
        cases hrows : sampleRowsAll o h (generateStatistics Z none false 86400 s).1 with
        | ok => rfl
        | error e2 =>
          exfalso
          obtain ⟨vs, e1, -⟩ := all_details hp (h := h) (by rw [h1]; exact classFor_mem _)
            (generateStatistics Z none false 86400 s).1 (fun x hx => convertible false 86400 hg s' x (hgn ▸ hx))
          rw [hrows] at e1; cases e1
  · have hg : ∃ s', getHeader true s = (.error e, s') :=
      ⟨(getHeader true s).2, by rw [← C09_damaged_container s e hex (by rw [hrest]; omega) true]⟩
    obtain ⟨s', hg⟩ := hg
    refine ⟨c0, e, hc0, he, ⟨0, ?_⟩, ?_, fun _ o file _ => by rw [parseFile_refused hg]⟩
    · rw [generate_none, hg]; rfl
    · rw [generate_none, hg]

/-- **C60** For every content: from a cut file the samples are a beginning of those of the intact file, and either the cut
did not matter at all or `EOFError` or `OSError` is raised. -/
theorem C60_cut_any (Z : Zlib) (rot : Bool) (hd : Option Header) (max : Int) {raw c : Bytes} (hraw : gunzip raw = some c) (k : Nat)
    {s t : Stream} (O : Opens (raw.take k) s) (T : Opens raw t) (hcut : gunzip (raw.take k) = none) :
    (generateStatistics Z hd rot max s).1 <+: (generateStatistics Z hd rot max t).1 ∧
    ((generateStatistics Z hd rot max s).1 = (generateStatistics Z hd rot max t).1 ∧
      (generateStatistics Z hd rot max s).2.1 = (generateStatistics Z hd rot max t).2.1 ∨
     (generateStatistics Z hd rot max s).2.1 = .raised .eofError ∨ (generateStatistics Z hd rot max s).2.1 = .raised .osError) := by
  obtain ⟨⟨more, hmore⟩, hsh⟩ := O.cut hcut (raw.drop k) c (by rw [List.take_append_drop]; exact hraw)
  have ht := opens_intact T hraw
  have hrest : s.rest = s.data := by unfold Stream.rest; rw [O.start]; rfl
  have htr : t.rest = s.rest ++ more := by rw [ht, hrest, hmore]; simp [Stream.rest]
  rcases hsh with h | h
  · rcases C32_cut_container Z rot hd max .eofError (by decide) more h htr with ⟨h1, h2⟩ | ⟨h1, h2⟩
    · exact ⟨h1 ▸ List.prefix_refl _, .inl ⟨h1, h2⟩⟩
    · exact ⟨h1, .inr (.inl h2)⟩
  · rcases C32_cut_container Z rot hd max .osError (by decide) more h htr with ⟨h1, h2⟩ | ⟨h1, h2⟩
    · exact ⟨h1 ▸ List.prefix_refl _, .inl ⟨h1, h2⟩⟩
    · exact ⟨h1, .inr (.inr h2)⟩

/-- **C60** A file cut before its first byte is an empty log: refused for its magic number. -/
theorem C60_nothing_left (Z : Zlib) (o : Opts) (file : PyStr) {s : Stream} (O : Opens [] s) :
    ∃ w, (parseFile Z o file s).1 = .error (.valueError w) := by
  have := opens_intact O gunzip_nil
  subst this
  obtain ⟨w, hw⟩ := (C09_rejection_kinds { data := [] } (.inl rfl)).1.mpr (by decide +kernel)
  exact ⟨_, by rw [parseFile_refused (s' := (getHeader true { data := [] }).2) (by rw [← hw])]⟩

/-- `gzip.open` as assumed is possible for every file. -/
example (raw : Bytes) : ∃ s, Opens raw s := by
  cases h : gunzip raw with
  | some c =>
    refine ⟨{ data := c }, rfl, fun c' e => ?_, fun e => ?_, fun e => ?_⟩
    · rw [h] at e; injection e with e; exact ⟨e, rfl⟩
    · rw [h] at e; cases e
    · rw [h] at e; cases e
  | none =>
    refine ⟨{ data := [], short := some .eofError }, rfl, fun c' e => ?_, fun _ => by simp, fun _ _ _ _ => ⟨List.nil_prefix, .inl rfl⟩⟩
    rw [h] at e; cases e

/-- A toy log of every version in a gzip file, cut anywhere. -/
example (r : Row) (hr : r ∈ table) (k : Nat) (h0 : 0 < k) (hk : k < (Gzip.store (toyHeader r ++ body r (toyLog r))).length)
    {s : Stream} (O : Opens ((Gzip.store (toyHeader r ++ body r (toyLog r))).take k) s) :
    ∃ e, (e = Exc.eofError ∨ e = Exc.osError) ∧ (generateStatistics toyZ none false 10 s).2.1 = .raised e := by
  obtain ⟨c, e, -, he, -, h, -⟩ := C60_cut_log hr (toyHeader_valid r hr) (toyLog_valid r hr) false 10 (by simp [toyLog])
    (member_store _) k h0 hk O
  exact ⟨e, he, h⟩

/-- The gzip file of "hi" written by `gzip.compress(b"hi", mtime=0)`, and what is left of it when its last byte is cut. -/
def hiGz : Bytes := [31, 139, 8, 0, 0, 0, 0, 0, 2, 3, 203, 200, 4, 0, 172, 42, 147, 216, 2, 0, 0, 0]

example : member hiGz = some ([104, 105], []) ∧ gunzip hiGz = some [104, 105] ∧ gunzip (hiGz.take 21) = none ∧
    gunzip (hiGz ++ [0, 0] ++ hiGz) = some [104, 105, 104, 105] := by decide +kernel

end Atop
