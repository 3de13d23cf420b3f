import Verif.Props.Decode
import Verif.Props.Options
import Verif.Props.Zlib
/-!
# C59: reading a file again after it has grown
-/

namespace Atop
open Spec

/-- `b'` is `b` grown, unless all of `b` has been used up by a read that wanted more. -/
def Grown (b b' : Bytes) : Prop := b = [] ∨ ∃ e, b' = b ++ e

/-- A decompressor that needs input and ignores what follows a complete stream (as zlib: `C57_cut_and_trailing`). -/
structure Streaming (Z : Zlib) : Prop where
  nil : Z [] = none
  append : ∀ b e d, Z b = some d → Z (b ++ e) = some d

namespace Grown
variable {Z : Zlib}

theorem unpack_nil (S : Streaming Z) (n : Nat) : Spec.unpack Z true n [] = .error .zlib := by
  unfold Spec.unpack takeBytes
  simp [S.nil]

theorem unpack_err {n : Nat} {b : Bytes} {t : Trouble} (h : Spec.unpack Z true n b = .error t) : t = .zlib := by
  unfold Spec.unpack takeBytes at h
  rw [if_neg (by simp)] at h
  dsimp only at h
  split at h <;> cases h
  rfl

theorem unpack_ok (S : Streaming Z) {n : Nat} {b b' d rest : Bytes} (g : Grown b b')
    (h : Spec.unpack Z true n b = .ok (d, rest)) : ∃ rest', Spec.unpack Z true n b' = .ok (d, rest') ∧ Grown rest rest' := by
  rcases g with rfl | ⟨e, rfl⟩
  · rw [unpack_nil S] at h; cases h
  · unfold Spec.unpack takeBytes at h ⊢
    rw [if_neg (by simp)] at h ⊢
    dsimp only at h ⊢
    cases hz : Z (b.take n) with
    | none => rw [hz] at h; cases h
    | some d' =>
      rw [hz] at h
      injection h with h
      injection h with h1 h2
      subst h1 h2
      have : Z ((b ++ e).take n) = some d' := by
        rw [List.take_append]
        exact S.append _ _ _ hz
      rw [this]
      refine ⟨_, rfl, ?_⟩
      by_cases hn : n ≤ b.length
      · exact .inr ⟨e, by rw [List.drop_append_of_le_length hn]⟩
      · exact .inl (List.drop_eq_nil_of_le (by omega))

theorem groups_ok (S : Streaming Z) {L : Nat} {rec b b' rest : Bytes} {gs : List WGroup} (g : Grown b b')
    (h : decodeGroups Z L true rec b = .ok (gs, rest)) :
    ∃ rest', decodeGroups Z L true rec b' = .ok (gs, rest') ∧ Grown rest rest' := by
  unfold decodeGroups at h ⊢
  cases h1 : Spec.unpack Z true (u32 rec 72) b with
  | error => rw [h1] at h; cases h
  | ok p =>
    obtain ⟨d, b1⟩ := p
    obtain ⟨b1', e1, g1⟩ := unpack_ok S g h1
    rw [h1] at h; rw [e1]
    dsimp only at h ⊢
    cases h2 : Spec.unpack Z true (u32 rec 84) b1 with
    | error => rw [h2] at h; cases h
    | ok p =>
      obtain ⟨q, b2⟩ := p
      obtain ⟨b2', e2, g2⟩ := unpack_ok S g1 h2
      rw [h2] at h; rw [e2]
      dsimp only at h ⊢
      cases h3 : decodeChain L d (u16 rec 10) 0 q with
      | error => rw [h3] at h; cases h
      | ok gs' =>
        rw [h3] at h
        injection h with h; injection h with ha hb
        subst ha hb
        exact ⟨b2', rfl, g2⟩

theorem groups_err (S : Streaming Z) {L : Nat} {rec b b' : Bytes} {t : Trouble} (g : Grown b b') (ht : t ≠ .zlib)
    (h : decodeGroups Z L true rec b = .error t) : decodeGroups Z L true rec b' = .error t := by
  unfold decodeGroups at h ⊢
  cases h1 : Spec.unpack Z true (u32 rec 72) b with
  | error => rw [h1] at h; injection h with h; subst h; exact absurd (unpack_err h1) ht
  | ok p =>
    obtain ⟨d, b1⟩ := p
    obtain ⟨b1', e1, g1⟩ := unpack_ok S g h1
    rw [h1] at h; rw [e1]
    dsimp only at h ⊢
    cases h2 : Spec.unpack Z true (u32 rec 84) b1 with
    | error => rw [h2] at h; injection h with h; subst h; exact absurd (unpack_err h2) ht
    | ok p =>
      obtain ⟨q, b2⟩ := p
      obtain ⟨b2', e2, g2⟩ := unpack_ok S g1 h2
      rw [h2] at h; rw [e2]
      dsimp only at h ⊢
      cases h3 : decodeChain L d (u16 rec 10) 0 q with
      | error => rw [h3] at h; exact h
      | ok gs' => rw [h3] at h; cases h

theorem blocks_ok (S : Streaming Z) {r : Row} {cg : Bool} {head b b' rest : Bytes} {f : Found} (g : Grown b b')
    (h : decodeBlocks Z r cg true head b = .ok (some (f, rest))) :
    ∃ rest', decodeBlocks Z r cg true head b' = .ok (some (f, rest')) ∧ Grown rest rest' := by
  unfold decodeBlocks at h ⊢
  by_cases h0 : u32 head 16 = 0
  · rw [if_pos h0] at h; cases h
  rw [if_neg h0] at h ⊢
  cases h1 : Spec.unpack Z true (u32 head 16) b with
  | error => rw [h1] at h; cases h
  | ok p =>
    obtain ⟨d, b1⟩ := p
    obtain ⟨b1', e1, g1⟩ := unpack_ok S g h1
    rw [h1] at h; rw [e1]
    dsimp only at h ⊢
    by_cases hl : d.length < r.sstat
    · rw [if_pos hl] at h; cases h
    rw [if_neg hl] at h ⊢
    cases h2 : Spec.unpack Z true (u32 head 20) b1 with
    | error => rw [h2] at h; cases h
    | ok p =>
      obtain ⟨q, b2⟩ := p
      obtain ⟨b2', e2, g2⟩ := unpack_ok S g1 h2
      rw [h2] at h; rw [e2]
      dsimp only at h ⊢
      cases h3 : decodeTasks r.tstat (u32 head 28) q with
      | error => rw [h3] at h; cases h
      | ok ts =>
        rw [h3] at h
        dsimp only at h ⊢
        cases cg with
        | false =>
          rw [if_pos rfl] at h ⊢
          injection h with h; injection h with h; injection h with ha hb
          subst ha hb
          exact ⟨b2', rfl, g2⟩
        | true =>
          rw [if_neg (by simp)] at h ⊢
          cases h4 : decodeGroups Z (r.cstat.getD 0) true head b2 with
          | error => rw [h4] at h; cases h
          | ok p =>
            obtain ⟨gs, b3⟩ := p
            obtain ⟨b3', e3, g3⟩ := groups_ok S g2 h4
            rw [h4] at h; rw [e3]
            injection h with h; injection h with h; injection h with ha hb
            subst ha hb
            exact ⟨b3', rfl, g3⟩

theorem blocks_err (S : Streaming Z) {r : Row} {cg : Bool} {head b b' : Bytes} {t : Trouble} (g : Grown b b') (ht : t ≠ .zlib)
    (h : decodeBlocks Z r cg true head b = .error t) : decodeBlocks Z r cg true head b' = .error t := by
  unfold decodeBlocks at h ⊢
  by_cases h0 : u32 head 16 = 0
  · rw [if_pos h0] at h; cases h
  rw [if_neg h0] at h ⊢
  cases h1 : Spec.unpack Z true (u32 head 16) b with
  | error => rw [h1] at h; injection h with h; subst h; exact absurd (unpack_err h1) ht
  | ok p =>
    obtain ⟨d, b1⟩ := p
    obtain ⟨b1', e1, g1⟩ := unpack_ok S g h1
    rw [h1] at h; rw [e1]
    dsimp only at h ⊢
    by_cases hl : d.length < r.sstat
    · rw [if_pos hl] at h ⊢; exact h
    rw [if_neg hl] at h ⊢
    cases h2 : Spec.unpack Z true (u32 head 20) b1 with
    | error => rw [h2] at h; injection h with h; subst h; exact absurd (unpack_err h2) ht
    | ok p =>
      obtain ⟨q, b2⟩ := p
      obtain ⟨b2', e2, g2⟩ := unpack_ok S g1 h2
      rw [h2] at h; rw [e2]
      dsimp only at h ⊢
      cases h3 : decodeTasks r.tstat (u32 head 28) q with
      | error => rw [h3] at h; exact h
      | ok ts =>
        rw [h3] at h
        dsimp only at h ⊢
        cases cg with
        | false => rw [if_pos rfl] at h; cases h
        | true =>
          rw [if_neg (by simp)] at h ⊢
          cases h4 : decodeGroups Z (r.cstat.getD 0) true head b2 with
          | error =>
            rw [h4] at h
            injection h with h; subst h
            rw [groups_err S g2 ht h4]
          | ok p => rw [h4] at h; cases h

/-- Less than a record: nothing but the end of the log or a block that does not decompress. -/
theorem sample_short (S : Streaming Z) {r : Row} {cg : Bool} {b : Bytes} (hb : b.length < r.record) :
    decodeSample Z r cg true b = .ok none ∨ decodeSample Z r cg true b = .error .zlib := by
  unfold decodeSample takeBytes
  rw [if_neg (by simp)]
  dsimp only
  rw [List.drop_eq_nil_of_le (by omega)]
  unfold decodeBlocks
  split
  · exact .inl rfl
  · rw [unpack_nil S]; exact .inr rfl

theorem sample_long {r : Row} {cg : Bool} {b : Bytes} (hb : r.record ≤ b.length) :
    decodeSample Z r cg true b = decodeBlocks Z r cg true (b.take r.record) (b.drop r.record) := by
  unfold decodeSample takeBytes
  rw [if_neg (by simp)]
  dsimp only
  rw [List.length_take, Nat.min_eq_left hb, Nat.sub_self, List.replicate_zero, List.append_nil]

theorem sample (S : Streaming Z) {r : Row} (hr : 0 < r.record) {cg : Bool} {b b' : Bytes} (g : Grown b b') :
    (∀ f rest, decodeSample Z r cg true b = .ok (some (f, rest)) →
      ∃ rest', decodeSample Z r cg true b' = .ok (some (f, rest')) ∧ Grown rest rest') ∧
    (∀ t, t ≠ .zlib → decodeSample Z r cg true b = .error t → decodeSample Z r cg true b' = .error t) := by
  by_cases hb : b.length < r.record
  · rcases sample_short S (cg := cg) hb with e | e <;> rw [e]
    · exact ⟨nofun, nofun⟩
    · exact ⟨nofun, fun t ht h => by injection h with h; exact absurd h.symm ht⟩
  · rcases g with rfl | ⟨e, rfl⟩
    · exact absurd hr (by simpa using hb)
    · rw [sample_long (by omega), sample_long (by rw [List.length_append]; omega), List.take_append_of_le_length (by omega),
        List.drop_append_of_le_length (by omega)]
      have g' : Grown (b.drop r.record) (b.drop r.record ++ e) := .inr ⟨e, rfl⟩
      exact ⟨fun f rest h => blocks_ok S g' h, fun t ht h => blocks_err S g' ht h⟩

theorem log (S : Streaming Z) {r : Row} (hr : 0 < r.record) {cg : Bool} : ∀ (n : Nat) {b b' : Bytes}, Grown b b' →
    (decodeLog Z r cg true n b).1 <+: (decodeLog Z r cg true n b').1 ∧
    ∀ t, t ≠ .zlib → (decodeLog Z r cg true n b).2 = some t → decodeLog Z r cg true n b' = decodeLog Z r cg true n b
  | 0, b, b', g => by simp [decodeLog]
  | n + 1, b, b', g => by
    obtain ⟨s1, s2⟩ := sample S hr (cg := cg) g
    rw [decodeLog]
    cases h : decodeSample Z r cg true b with
    | error t =>
      refine ⟨List.nil_prefix, fun t' ht e => ?_⟩
      dsimp only at e ⊢
      injection e with e
      subst e
      rw [decodeLog, s2 t ht h]
    | ok o =>
      cases o with
      | none => exact ⟨List.nil_prefix, nofun⟩
      | some p =>
        obtain ⟨f, rest⟩ := p
        obtain ⟨rest', e', g'⟩ := s1 f rest h
        obtain ⟨i1, i2⟩ := log S hr n g'
        rw [decodeLog, e']
        dsimp only
        refine ⟨(List.prefix_cons_inj f).mpr i1, fun t ht e => ?_⟩
        rw [i2 t ht e]

end Grown

theorem sampleRowsAll_append (o : Opts) (h : Header) : ∀ (xs ys : List Sample), sampleRowsAll o h (xs ++ ys) =
    match sampleRowsAll o h xs with
    | .error e => .error e
    | .ok rows => match sampleRowsAll o h ys with
      | .error e => .error e
      | .ok more => .ok (rows ++ more)
  | [], ys => by
    rw [List.nil_append]
    show _ = (match sampleRowsAll o h ys with | Except.error e => Except.error e | Except.ok more => Except.ok ([] ++ more))
    cases sampleRowsAll o h ys <;> rfl
  | x :: xs, ys => by
    rw [List.cons_append, sampleRowsAll, sampleRowsAll, sampleRowsAll_append o h xs ys]
    cases sampleRows o h x with
    | error => rfl
    | ok r =>
      dsimp only
      cases sampleRowsAll o h xs with
      | error => rfl
      | ok rs =>
        dsimp only
        cases sampleRowsAll o h ys with
        | error => rfl
        | ok more => simp

/-- The two runs of `generate_statistics` on a file and on the same file grown. -/
theorem generate_grown {Z : Zlib} (S : Streaming Z) {s t : Stream} (old new : Bytes) (hs : s.rest = old) (ht : t.rest = old ++ new)
    (hl : 480 ≤ old.length) (ps : s.short = none) (pt : t.short = none) {h : Header} {s' t' : Stream}
    (hg : getHeader true s = (.ok h, s')) (hg' : getHeader true t = (.ok h, t')) (max : Int) :
    (generateStatistics Z none false max s).1 <+: (generateStatistics Z none false max t).1 ∧
    ∀ e, (generateStatistics Z none false max s).2.1 = .raised e →
      (generateStatistics Z none false max t).1 = (generateStatistics Z none false max s).1 ∧
      (generateStatistics Z none false max t).2.1 = .raised e := by
  obtain ⟨-, -, -, hs', -⟩ := getHeader_ok hg
  obtain ⟨-, -, -, ht', -⟩ := getHeader_ok hg'
  have r1 : s'.rest = old.drop 480 := by rw [hs', Stream.skip_rest, hs]
  have r2 : t'.rest = old.drop 480 ++ new := by
    rw [ht', Stream.skip_rest, ht, List.drop_append_of_le_length hl]
  have p1 : s'.short = none := by rw [hs']; exact ps
  have p2 : t'.short = none := by rw [ht']; exact pt
  rw [generate_none, generate_none, hg, hg']
  dsimp only
  have hrec : 0 < (usedRow (first480 s.rest)).record := by
    have : ∀ r ∈ table, 0 < r.record := by decide
    exact this _ (usedRow_mem _)
  obtain ⟨l1, l2⟩ := Grown.log S hrec (cg := readsCGroups (first480 s.rest)) max.toNat
    (b := old.drop 480) (b' := old.drop 480 ++ new) (.inr ⟨new, rfl⟩)
  obtain ⟨a1, a2⟩ := C53_decoder Z hg false max s' (fs := (decodeLog Z (usedRow (first480 s.rest)) (readsCGroups (first480 s.rest)) true max.toNat (old.drop 480)).1)
    (t := (decodeLog Z (usedRow (first480 s.rest)) (readsCGroups (first480 s.rest)) true max.toNat (old.drop 480)).2) (by rw [p1, r1]; rfl)
  obtain ⟨b1, b2⟩ := C53_decoder Z hg false max t' (fs := (decodeLog Z (usedRow (first480 s.rest)) (readsCGroups (first480 s.rest)) true max.toNat (old.drop 480 ++ new)).1)
    (t := (decodeLog Z (usedRow (first480 s.rest)) (readsCGroups (first480 s.rest)) true max.toNat (old.drop 480 ++ new)).2) (by rw [p2, r2]; rfl)
  refine ⟨by rw [a1, b1]; exact l1.map _, fun e he => ?_⟩
  rw [a2] at he
  cases ht0 : (decodeLog Z (usedRow (first480 s.rest)) (readsCGroups (first480 s.rest)) true max.toNat (old.drop 480)).2 with
  | none => rw [ht0] at he; cases he
  | some tr =>
    have hz : tr ≠ .zlib := by
      rintro rfl
      rw [ht0] at he
      simp [troubleExc] at he
    have := l2 tr hz ht0
    rw [this] at b1 b2
    refine ⟨by rw [b1, a1], ?_⟩
    rw [b2, ht0]
    rw [ht0] at he
    rw [p1] at he
    rw [p2]
    exact he

/-- **C59** Reading a file again after bytes have been appended (the header being complete before): if the call failed, it
fails again with the same exception; if it printed, then the second time it fails or prints the same entries in the same
order, followed by further ones. -/
theorem C59_rerun {Z : Zlib} (S : Streaming Z) (o : Opts) (file : PyStr) {s t : Stream} (old new : Bytes)
    (hs : s.rest = old) (ht : t.rest = old ++ new) (hl : 480 ≤ old.length) (ps : s.short = none) (pt : t.short = none) :
    match (parseFile Z o file s).1 with
    | .error e => (parseFile Z o file t).1 = .error e
    | .ok docs => ∀ docs', (parseFile Z o file t).1 = .ok docs' → docs <+: docs' := by
  have hh : first480 t.rest = first480 s.rest := by
    unfold first480
    rw [ht, hs, List.take_append_of_le_length hl, List.length_append]
    congr 2; omega
  have e1 : getHeader true s = (headerOf true (first480 s.rest), s.adv (min 480 s.rest.length)) := by
    rw [getHeader_eq, Stream.readinto_none ps]; rfl
  have e2 : getHeader true t = (headerOf true (first480 s.rest), t.adv (min 480 t.rest.length)) := by
    rw [getHeader_eq, Stream.readinto_none pt, ← hh]; rfl
  cases hr : headerOf true (first480 s.rest) with
  | error e => rw [hr] at e1 e2; rw [parseFile_refused e1, parseFile_refused e2]
  | ok h =>
    rw [hr] at e1 e2
    by_cases hv : o.parseables = [] ∨ (major (first480 s.rest) = 1 ∧ minor (first480 s.rest) = 26)
    · obtain ⟨g1, g2⟩ := generate_grown S old new hs ht hl ps pt e1 e2 86400
      rw [parseFile_ok e1 o file hv, parseFile_ok e2 o file (by rw [hh]; exact hv)]
      unfold docOf
      obtain ⟨more, hmore⟩ := g1
      rw [← hmore, sampleRowsAll_append]
      cases ha : sampleRowsAll o h (generateStatistics Z none false 86400 s).1 with
      | error e => rfl
      | ok rows =>
        dsimp only
        cases hend : (generateStatistics Z none false 86400 s).2.1 with
        | returned =>
          dsimp only
          intro docs' hd
          cases hb : sampleRowsAll o h more with
          | error => rw [hb] at hd; cases hd
          | ok rs =>
            rw [hb] at hd
            dsimp only at hd
            cases hend' : (generateStatistics Z none false 86400 t).2.1 with
            | raised => rw [hend'] at hd; cases hd
            | returned =>
              rw [hend'] at hd
              injection hd with hd
              exact ⟨rs, hd⟩
        | raised e =>
          obtain ⟨k1, k2⟩ := g2 e hend
          have : more = [] := by rw [← hmore] at k1; simpa using k1
          rw [this, k2]
          rfl
    · have hp : o.parseables ≠ [] := fun h => hv (.inl h)
      have hv' : ¬ (major (first480 s.rest) = 1 ∧ minor (first480 s.rest) = 26) := fun h => hv (.inr h)
      rw [parseFile_unsupported e1 hp file hv', parseFile_unsupported e2 hp file (by rw [hh]; exact hv'), hh]
      intro docs' hd
      injection hd with hd
      rw [hd]

/-- **C59** In the zlib format nothing need be assumed (see C57). -/
theorem C59_zlib_format (o : Opts) (file : PyStr) {s t : Stream} (old new : Bytes)
    (hs : s.rest = old) (ht : t.rest = old ++ new) (hl : 480 ≤ old.length) (ps : s.short = none) (pt : t.short = none) :
    match (parseFile Deflate.decompress o file s).1 with
    | .error e => (parseFile Deflate.decompress o file t).1 = .error e
    | .ok docs => ∀ docs', (parseFile Deflate.decompress o file t).1 = .ok docs' → docs <+: docs' :=
  C59_rerun ⟨C57_cut_and_trailing.2.1, C57_cut_and_trailing.2.2⟩ o file old new hs ht hl ps pt

theorem rerun_data {Z : Zlib} (S : Streaming Z) {o : Opts} {file : PyStr} {hb a b : Bytes} (hl : hb.length = 480) {d d' : List JVal}
    (h : (parseFile Z o file { data := hb ++ a }).1 = .ok d) (h' : (parseFile Z o file { data := hb ++ (a ++ b) }).1 = .ok d') :
    d <+: d' := by
  have := C59_rerun S o file (s := { data := hb ++ a }) (t := { data := hb ++ (a ++ b) }) (hb ++ a) b
    (by simp [Stream.rest]) (by simp [Stream.rest]) (by rw [List.length_append]; omega) rfl rfl
  rw [h] at this
  exact this _ h'

/-- A monitor that reads a growing log every now and then: one entry the first time, two more (and the same first one)
when the rest has been written. -/
example (r : Row) (hr : r ∈ table) : ∃ docs docs',
    (parseFile toyZ {} py!"x" { data := toyHeader r ++ body r ((toyLog r).take 1) }).1 = .ok docs ∧
    (parseFile toyZ {} py!"x" { data := toyHeader r ++ body r (toyLog r) }).1 = .ok docs' ∧
    docs.length = 1 ∧ docs'.length = 3 ∧ docs <+: docs' := by
  obtain ⟨c, docs, -, h1, h2, -⟩ := C29_written_log hr (toyHeader_valid r hr)
    (ws := (toyLog r).take 1) (fun w hw => toyLog_valid r hr w (List.mem_of_mem_take hw)) (by simp [toyLog])
    (o := {}) rfl py!"x" (s := { data := _ }) (by simp [Stream.rest]; rfl) rfl
  obtain ⟨c', docs', -, h1', h2', -⟩ := C29_written_log hr (toyHeader_valid r hr) (toyLog_valid r hr) (by simp [toyLog])
    (o := {}) rfl py!"x" (s := { data := _ }) (by simp [Stream.rest]; rfl) rfl
  refine ⟨docs, docs', h1, h1', h2.trans (by simp [toyLog]), h2'.trans (by simp [toyLog]), ?_⟩
  have hb : body r (toyLog r) = body r ((toyLog r).take 1) ++ body r ((toyLog r).drop 1) := by
    rw [← body_append, List.take_append_drop]
  rw [hb] at h1'
  exact rerun_data ⟨toyZ_nil, toyZ_append⟩ (toyHeader_valid r hr).length h1 h1'

end Atop
