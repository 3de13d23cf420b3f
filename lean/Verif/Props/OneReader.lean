import Verif.Spec.OneReader
import Verif.Props.ByHand
/-!
# C79: each reader by itself
-/

namespace Atop.Src
open Spec
set_option maxRecDepth 20000

theorem ready_usable {h : Header} {r v cg} (R : Atop.Ready h r v cg) : ∃ C : Int, Usable h r v cg r.tstat C ∧
    (cg = true → C = (r.cstat.getD 0 : Nat)) := by
  refine ⟨i32 h.buf 456, ⟨R.facts, R.len, R.ver, R.old, R.cg_iff, R.tlen, rfl, ?_, R.small.1⟩, ?_⟩
  · intro h; rw [← R.clen h]; rfl
  · intro h
    have e := R.clen h
    rw [← e, Option.getD_some]
    exact i32_of_u32_lt rfl (R.csmall _ e.symm).2.1

/-- What a call answers, from what the function on values does. -/
theorem answers {α β γ : Type} {out : PyStr} {w : World} {f : α → Val} {m : M α} {rd : Rd β} {rel : World → α → β → Prop}
    {found : Except Trouble (γ × Bytes)} {g : γ → β} {shows : W → γ → Val → Prop}
    (S : SimAt w m rd rel) (D : Does rd w.file found g) (hs : (rd w.file).2.short = w.file.short)
    (hv : ∀ w' a c, rel w' a (g c) → (∃ b, found = .ok (c, b)) → shows (emb out w') c (f a)) :
    Answers (emb out w) found shows (embR out f (m w)).1 (embR out f (m w)).2 := by
  obtain ⟨s1, s2, s3⟩ := S
  have e2 : (embR out f (m w)).2 = emb out (m w).2 := by
    unfold embR; rcases m w with ⟨e | a, w'⟩ <;> rfl
  rw [e2]
  refine ⟨?_, ?_, ?_, s1.1, ?_, rfl⟩
  · intro t ht
    have := D.1 t ht
    rw [this] at s3
    unfold embR
    rcases hm : m w with ⟨e | a, w'⟩ <;> rw [hm] at s3
    · dsimp only at s3 ⊢; rw [s3]; rfl
    · exact s3.elim
  · intro c b hc
    obtain ⟨s', d1, d2, d3⟩ := D.2 c b hc
    rw [d1] at s2 s3
    unfold embR
    rcases hm : m w with ⟨e | a, w'⟩ <;> rw [hm] at s2 s3
    · exact s3.elim
    · refine ⟨⟨_, rfl, hv w' a c s3 ⟨b, hc⟩⟩, ?_⟩
      show w'.file.rest = b
      rw [show w'.file = s' from s2, d2]
  · show (m w).2.file.short = w.file.short
    rw [s2, hs]
  · exact List.IsPrefix.map _ s1.2

section
variable (Z : Zlib) (fs : FileSystem) (args : CommandLine)

theorem class_of {h : Header} {s0 s1 : Stream} (hg : getHeader true s0 = (.ok h, s1)) :
    headerByVersion (usedRow (first480 s0.rest)).version = some h.cls := by
  obtain ⟨-, -, A, -, enough⟩ := getHeader_ok hg
  obtain ⟨c, hc, hx⟩ := C08_header_result s0 enough A
  rw [hx] at hg
  cases hg
  exact hc

theorem block_short (n : Nat) (s : Stream) : (block Z n s).2.short = s.short := by
  unfold block
  rw [Rd.bind_eq]
  have := read_short (n := n) (s := s)
  rcases hr : Stream.read n s with ⟨e | b, s'⟩ <;> rw [hr] at this
  · exact this
  · exact this

theorem bind_lift_short {β γ : Type} {m : Rd β} {k : β → Except Exc γ} {s : Stream} (hm : (m s).2.short = s.short) :
    ((m >>= fun a => Rd.lift (k a)) s).2.short = s.short := by
  rw [Rd.bind_eq]
  rcases hr : m s with ⟨e | b, s'⟩ <;> rw [hr] at hm <;> exact hm

variable (n : Nat) (out : PyStr) {w : World} (hl : LibFile w.file) (W : w.WF) {i : Nat} {h : Header} {s0 s1 : Stream}
  (hi : w.header i = some h) (hg : getHeader true s0 = (.ok h, s1)) {B : Blocks}
  (hB : layoutOf (usedRow (first480 s0.rest)).version = some B)
include hl W hi hg hB

/-- **C79** `get_record(raw_file, header)`, in any state and at any position: the record object shows the next bytes, zeros
behind the end of a whole file; a container that breaks off in them raises.  What is returned is a record object with memory
of its own that the other functions take. -/
theorem C79_get_record :
    let res := ((program Z fs args).at (n + 5)).call py!"atoparser" py!"get_record" [.file, .hdr i] [] (emb out w)
    Answers (emb out w) (recordAt (usedRow (first480 s0.rest)) w.file.short.isNone w.file.rest)
      (fun w' d v => Displays ((program Z fs args).at (n + 5)) w' v B.record d ∧
        ∃ x : Ref, v = refVal x ∧ x.ty = h.cls.Record ∧ (emb out w).heap.length ≤ x.blk ∧ w'.heap[x.blk]? = some d) res.1 res.2 := by
  have hc := header_class hg
  have hcl := class_of hg
  obtain ⟨h1, R, A, -, enough⟩ := getHeader_ok hg
  obtain ⟨c', B', hc', hB', ⟨n1, n2, n3, n4, n5⟩, ⟨z1, z2, z3, z4, z5⟩, ⟨m1, m2, m3, m4, m5⟩⟩ := layout_facts (usedRow_mem (first480 s0.rest))
  rw [hcl] at hc'; cases hc'
  rw [hB] at hB'; cases hB'
  dsimp only
  rw [(C68_readers Z fs args (n + 2) out w hl i h hi hc ⟨h.cls.Record, 0⟩ ⟨_, hc, rfl⟩).1]
  have D : Does (getRecord h) w.file (recordAt (usedRow (first480 s0.rest)) w.file.short.isNone w.file.rest) (fun d => ⟨h.cls.Record, d⟩) := by
    have D := does_readinto (usedRow (first480 s0.rest)).record w.file
    unfold recordAt Does
    rw [getRecord_eq R]
    cases hx : takeBytes w.file.short.isNone (usedRow (first480 s0.rest)).record w.file.rest with
    | error t =>
      refine ⟨?_, nofun⟩
      intro t' ht; cases ht
      have := D.1 t hx
      rcases hr : Stream.readinto (usedRow (first480 s0.rest)).record w.file with ⟨e | b, s'⟩ <;> rw [hr] at this
      · simpa using this
      · cases this
    | ok gb =>
      obtain ⟨g, b⟩ := gb
      refine ⟨nofun, ?_⟩
      intro a b' hab; cases hab
      obtain ⟨s', e1, e2⟩ := D.2 g b hx
      exact ⟨s', by rw [e1], e2⟩
  refine answers (sim_getRecord (header_at W hi)) D ?_ ?_
  · rw [getRecord_eq R]
    have := (readinto_skip (usedRow (first480 s0.rest)).record w.file).1
    rcases hr : Stream.readinto (usedRow (first480 s0.rest)).record w.file with ⟨e | b, s'⟩ <;> rw [hr] at this <;> dsimp only at this ⊢ <;> rw [this] <;> rfl
  · rintro w' a d ⟨hr, hlo, -⟩ ⟨b, hb⟩
    have hlen : d.length = (usedRow (first480 s0.rest)).record := by
      unfold recordAt takeBytes at hb
      split at hb
      · cases hb
      · rename_i heq
        split at heq
        · cases heq
        · cases heq; cases hb; simp
    exact ⟨displays_ref Z fs args (n + 1) out m2 hr.inst (by rw [z2]; exact hlen) n2, a, rfl, hr.1, hlo, hr.2⟩

variable {x : Ref} (hx : x.ty = h.cls.Record) {mem : Bytes} (hm : w.heap[x.blk]? = some mem)
include hx hm

/-- **C79** `get_sstat(raw_file, header, record)` for any record object of the version of the header, whatever its memory
holds: the block of the length given there is read and decompressed, and shown. -/
theorem C79_get_sstat :
    let res := ((program Z fs args).at (n + 5)).call py!"atoparser" py!"get_sstat" [.file, .hdr i, refVal x] [] (emb out w)
    Answers (emb out w) (sstatAt Z (usedRow (first480 s0.rest)) w.file.short.isNone mem w.file.rest)
      (fun w' d v => Displays ((program Z fs args).at (n + 5)) w' v B.sstat d) res.1 res.2 := by
  have hc := header_class hg
  have hcl := class_of hg
  obtain ⟨h1, R, A, -, enough⟩ := getHeader_ok hg
  obtain ⟨c', B', hc', hB', ⟨n1, n2, n3, n4, n5⟩, ⟨z1, z2, z3, z4, z5⟩, ⟨m1, m2, m3, m4, m5⟩⟩ := layout_facts (usedRow_mem (first480 s0.rest))
  rw [hcl] at hc'; cases hc'
  rw [hB] at hB'; cases hB'
  dsimp only
  rw [(C68_readers Z fs args (n + 2) out w hl i h hi hc x ⟨_, hc, hx⟩).2.1]
  refine answers (sim_getSStat Z (header_at W hi) (r := ⟨h.cls.Record, mem⟩) ⟨hx, hm⟩) (does_sstatIn R.facts Z mem w.file) ?_ ?_
  · rw [getSStat_eq R]
    exact bind_lift_short (block_short Z _ _)
  · rintro w' a d ⟨hr, -⟩ ⟨b, hb⟩
    refine displays_ref Z fs args (n + 1) out m3 hr.inst ?_ n3
    rw [z3]
    unfold sstatAt at hb
    split at hb
    · cases hb
    · split at hb
      · cases hb
      · cases hb; rw [List.length_take]; omega

/-- **C79** `get_tstat(raw_file, header, record)`: as many task objects as the record says, in order, each showing its
bytes. -/
theorem C79_get_tstat :
    let res := ((program Z fs args).at (n + 5)).call py!"atoparser" py!"get_tstat" [.file, .hdr i, refVal x] [] (emb out w)
    Answers (emb out w) (tstatAt Z (usedRow (first480 s0.rest)) w.file.short.isNone mem w.file.rest)
      (fun w' ts v => ∃ vs, v = .list vs ∧ AllShow (fun t v => Displays ((program Z fs args).at (n + 5)) w' v B.tstat t) ts vs) res.1 res.2 := by
  have hc := header_class hg
  have hcl := class_of hg
  have hca := returned_cache hg
  obtain ⟨ver, hver⟩ := Option.isSome_iff_exists.mp hca
  obtain ⟨h1, R, A, -, enough⟩ := getHeader_ok hg
  obtain ⟨C, U, -⟩ := ready_usable R
  obtain ⟨c', B', hc', hB', ⟨n1, n2, n3, n4, n5⟩, ⟨z1, z2, z3, z4, z5⟩, ⟨m1, m2, m3, m4, m5⟩⟩ := layout_facts (usedRow_mem (first480 s0.rest))
  rw [hcl] at hc'; cases hc'
  rw [hB] at hB'; cases hB'
  dsimp only
  rw [(C68_readers Z fs args (n + 2) out w hl i h hi hc x ⟨_, hc, hx⟩).2.2.1]
  have D := does_tstatIn U Z mem w.file
  simp only [decodeTasksIn_same] at D
  refine answers (sim_getTStat Z (header_at W hi) hver (r := ⟨h.cls.Record, mem⟩) ⟨hx, hm⟩) D ?_ ?_
  · rw [getTStat_eq R]
    exact bind_lift_short (block_short Z _ _)
  · rintro w' a ts ⟨hr, -⟩ ⟨b, hb⟩
    have hlen : ∀ t ∈ ts, t.length = (usedRow (first480 s0.rest)).tstat := by
      unfold tstatAt at hb
      split at hb
      · cases hb
      · rename_i d _ _
        unfold decodeTasks at hb
        split at hb
        · cases hb
        · rename_i heq
          split at heq
          · cases heq
          · rename_i hge
            cases heq; cases hb
            intro t ht
            obtain ⟨j, hj, rfl⟩ := List.mem_map.mp ht
            rw [List.mem_range] at hj
            have : (j + 1) * (usedRow (first480 s0.rest)).tstat ≤ u32 mem 28 * (usedRow (first480 s0.rest)).tstat := Nat.mul_le_mul_right _ hj
            rw [Nat.succ_mul] at this
            rw [List.length_take, List.length_drop]
            omega
    refine ⟨_, rfl, by have := congrArg List.length hr; simpa using this, ?_⟩
    intro j t y ht hy
    rw [List.getElem?_map] at hy
    cases hq : a[j]? with
    | none => rw [hq] at hy; cases hy
    | some q =>
      rw [hq] at hy
      cases hy
      have := congrArg (·[j]?) hr
      simp only [List.getElem?_map, hq, Option.map_some, ht] at this
      exact displays_ref Z fs args (n + 1) out m4 (Option.some.inj this) (by rw [z4]; exact hlen t (List.mem_of_getElem? ht)) n4

/-- **C79** `get_cstat(raw_file, header, record)` for a header of a version with cgroups: as many cgroups as the record says,
found by following the chain, each showing its structure and its process ids. -/
theorem C79_get_cstat (hcg : readsCGroups (first480 s0.rest) = true) :
    let res := ((program Z fs args).at (n + 5)).call py!"atoparser" py!"get_cstat" [.file, .hdr i, refVal x] [] (emb out w)
    Answers (emb out w) (cstatAt Z (usedRow (first480 s0.rest)) w.file.short.isNone mem w.file.rest)
      (fun w' gs v => ∃ vs, v = .list vs ∧
        AllShow (fun g v => ∃ nd, B.cstat = some nd ∧ DisplaysGroup ((program Z fs args).at (n + 5)) w' v nd g) gs vs) res.1 res.2 := by
  have hc := header_class hg
  have hcl := class_of hg
  obtain ⟨h1, R, A, -, enough⟩ := getHeader_ok hg
  rw [hcg] at R
  obtain ⟨C, U, hC⟩ := ready_usable R
  obtain ⟨t, L, t1, t2, t3⟩ := usable_cstat U
  obtain ⟨c', B', hc', hB', ⟨n1, n2, n3, n4, n5⟩, ⟨z1, z2, z3, z4, z5⟩, ⟨m1, m2, m3, m4, m5⟩⟩ := layout_facts (usedRow_mem (first480 s0.rest))
  rw [hcl] at hc'; cases hc'
  rw [hB] at hB'; cases hB'
  dsimp only
  rw [(C68_readers Z fs args (n + 2) out w hl i h hi hc x ⟨_, hc, hx⟩).2.2.2]
  have D := does_cstatIn U Z mem t1 w.file
  rw [hC rfl, decodeGroupsIn_same] at D
  refine answers (sim_getCStat Z (header_at W hi) (r := ⟨h.cls.Record, mem⟩) ⟨hx, hm⟩) D ?_ ?_
  · rw [getCStat_eq R Z mem t1, Rd.bind_eq]
    have b1 := block_short Z (u32 mem 72) w.file
    rcases hr : block Z (u32 mem 72) w.file with ⟨e | d, s'⟩ <;> rw [hr] at b1
    · exact b1
    · dsimp only at b1 ⊢
      rw [bind_lift_short (block_short Z _ _), b1]
  · rintro w' a gs ⟨hr, -⟩ ⟨b, hb⟩
    have hsz : ∀ g ∈ gs, t.size ≤ g.entry.length ∧ 4 * (g.pids.length / 4) = g.pids.length := by
      unfold cstatAt decodeGroups at hb
      split at hb
      · cases hb
      · split at hb
        · cases hb
        · split at hb
          · cases hb
          · rename_i hch
            cases hb
            intro g hg'
            obtain ⟨a1, a2⟩ := decodeChain_fits _ _ _ _ _ hch g hg'
            rw [t2, Option.getD_some] at a1
            exact ⟨by omega, by omega⟩
    refine ⟨_, rfl, by have := congrArg List.length hr; simpa using this, ?_⟩
    intro j g y hg' hy
    rw [List.getElem?_map] at hy
    cases hq : a[j]? with
    | none => rw [hq] at hy; cases hy
    | some q =>
      rw [hq] at hy
      cases hy
      have := congrArg (·[j]?) hr
      simp only [List.getElem?_map, hq, Option.map_some, hg'] at this
      rw [t1] at n5
      obtain ⟨g1, g2⟩ := hsz g (List.mem_of_getElem? hg')
      exact ⟨_, n5.symm, displays_group Z fs args n out (m5 t t1) (Option.some.inj this) g1 g2 rfl⟩

end

theorem attr_missing {t : CType} {name : PyStr} (h : t.look name = none) (buf : Bytes) :
    (Inst.mk t buf).intAttr name = .error .attributeError := by
  cases t with
  | struct c fs l => exact intAttr_none h buf
  | _ => rfl

theorem old_records : ∀ r ∈ table, ∀ c, headerByVersion r.version = some c → r.cstat = none →
    (r.version ≠ py!"2.8" ∧ r.version ≠ py!"2.9" → c.Record.look py!"ccomplen" = none) := by
  have : (table.all fun r => match headerByVersion r.version with
    | none => true
    | some c => r.cstat.isSome || r.version == py!"2.8" || r.version == py!"2.9" || (c.Record.look py!"ccomplen").isNone) = true := by
    decide +kernel
  intro r hr c hc hn hv
  have := List.all_eq_true.mp this r hr
  rw [hc, hn] at this
  simp only [Option.isSome_none, Bool.false_or, Bool.or_eq_true, beq_iff_eq, hv.1, hv.2, false_or, Option.isNone_iff_eq_none] at this
  exact this

theorem length_fields : ∀ r ∈ table, ∀ c, headerByVersion r.version = some c → ∀ name, name = py!"ccomplen" ∨ name = py!"icomplen" → ∀ buf,
    (Inst.mk c.Record buf).intAttr name = .error .attributeError ∨ ∃ k, (Inst.mk c.Record buf).intAttr name = .ok k := by
  have : (table.all fun r => match headerByVersion r.version with
    | none => true
    | some c => [py!"ccomplen", py!"icomplen"].all fun name => match c.Record.look name with
      | none => true
      | some (_, .int 4 false) => true
      | _ => false) = true := by decide +kernel
  intro r hr c hc name hname buf
  have := List.all_eq_true.mp this r hr
  rw [hc] at this
  have := List.all_eq_true.mp this name (by rcases hname with rfl | rfl <;> simp)
  cases hl : c.Record.look name with
  | none => exact .inl (attr_missing hl buf)
  | some p =>
    obtain ⟨o, t⟩ := p
    rw [hl] at this
    split at this
    · rename_i h; cases h
    · rename_i h; cases h
      exact .inr ⟨_, intAttr_u32 hl buf⟩
    · cases this

/-- No cgroup length in the header: no cgroups. -/
theorem getCStat_old {Z : Zlib} {h : Header} {x : Inst} (hh : h.inst.intAttr py!"cstatlen" = .error .attributeError)
    (hx : ∀ name, name = py!"ccomplen" ∨ name = py!"icomplen" → x.intAttr name = .error .attributeError ∨ ∃ k, x.intAttr name = .ok k)
    (s : Stream) : ∃ e, (getCStat Z h x s).1 = .error e ∧ (e = .attributeError ∨ e = .zlibError ∨ s.short = some e) := by
  unfold getCStat
  have rd : ∀ (k : Nat) (s s' : Stream) e, Stream.read k s = (.error e, s') → s.short = some e := by
    intro k s s' e hr
    exact ((Stream.read_skip k s).2.2 e (by rw [hr])).1
  have zd : ∀ b e, zdecompress Z b = .error e → e = .zlibError := by
    intro b e hz
    unfold zdecompress at hz
    cases hb : Z b <;> rw [hb] at hz <;> cases hz
    rfl
  rw [Rd.bind_eq, Rd.lift_eq]
  rcases hx py!"ccomplen" (.inl rfl) with h1 | ⟨k, h1⟩ <;> rw [h1]
  · exact ⟨_, rfl, .inl rfl⟩
  dsimp only
  rw [Rd.bind_eq]
  rcases h2 : Stream.read k.toNat s with ⟨e | b, s1⟩
  · exact ⟨_, rfl, .inr (.inr (rd _ _ _ _ h2))⟩
  have hs1 : s1.short = s.short := by have := read_short (n := k.toNat) (s := s); rw [h2] at this; exact this
  dsimp only
  rw [Rd.bind_eq, Rd.lift_eq]
  cases h3 : zdecompress Z b with
  | error e => exact ⟨_, rfl, .inr (.inl (zd _ _ h3))⟩
  | ok d =>
  dsimp only
  rw [Rd.bind_eq, Rd.lift_eq]
  rcases hx py!"icomplen" (.inr rfl) with h4 | ⟨m, h4⟩ <;> rw [h4]
  · exact ⟨_, rfl, .inl rfl⟩
  dsimp only
  rw [Rd.bind_eq]
  rcases h5 : Stream.read m.toNat s1 with ⟨e | b2, s2⟩
  · exact ⟨_, rfl, .inr (.inr (hs1 ▸ rd _ _ _ _ h5))⟩
  dsimp only
  rw [Rd.bind_eq, Rd.lift_eq]
  cases h6 : zdecompress Z b2 with
  | error e => exact ⟨_, rfl, .inr (.inl (zd _ _ h6))⟩
  | ok p =>
  dsimp only
  rw [Rd.bind_eq, Rd.lift_eq, hh]
  exact ⟨_, rfl, .inl rfl⟩

section
variable (Z : Zlib) (fs : FileSystem) (args : CommandLine)
/-- **C79** `get_cstat` with a header and record of a version without cgroups makes up nothing: it raises.  It changes the memory
of no object, no header object, and prints nothing.  Records of these versions have no length of a cgroup block, so it is an
`AttributeError` and nothing is read; only those of 2.8 and 2.9 have one, unused. -/
theorem C79_get_cstat_old (n : Nat) (out : PyStr) {w : World} (hl : LibFile w.file) (W : w.WF) {i : Nat} {h : Header} {s0 s1 : Stream}
    (hi : w.header i = some h) (hg : getHeader true s0 = (.ok h, s1)) {x : Ref} (hx : x.ty = h.cls.Record)
    {mem : Bytes} (hm : w.heap[x.blk]? = some mem) (old : (usedRow (first480 s0.rest)).cstat = none) :
    let res := ((program Z fs args).at (n + 5)).call py!"atoparser" py!"get_cstat" [.file, .hdr i, refVal x] [] (emb out w)
    (∃ e, res.1 = .error e ∧ (e = .sys .attributeError ∨ e = .sys .zlibError ∨ ∃ e', w.file.short = some e' ∧ e = .sys e')) ∧
    (emb out w).heap <+: res.2.heap ∧ (emb out w).headers <+: res.2.headers ∧ res.2.out = out ∧
    ((usedRow (first480 s0.rest)).version ≠ py!"2.8" ∧ (usedRow (first480 s0.rest)).version ≠ py!"2.9" →
      res = (.error (.sys .attributeError), emb out w)) := by
  have hc := header_class hg
  dsimp only
  rw [(C68_readers Z fs args (n + 2) out w hl i h hi hc x ⟨_, hc, hx⟩).2.2.2]
  have hl2 := (getHeader_ok hg).2.1.facts.cstatlen
  rw [if_neg (by rw [old]; simp)] at hl2
  have hlen : h.inst.intAttr py!"cstatlen" = .error .attributeError := attr_missing (t := h.inst.ty) hl2 h.inst.buf
  obtain ⟨e, he, hk⟩ := getCStat_old (Z := Z) (x := ⟨h.cls.Record, mem⟩) hlen
    (fun name hn => length_fields _ (usedRow_mem (first480 s0.rest)) _ (class_of hg) name hn mem) w.file
  obtain ⟨s1, s2, s3⟩ := sim_getCStat Z (header_at W hi) (rec := x) (r := ⟨h.cls.Record, mem⟩) ⟨hx, hm⟩
  rw [he] at s3
  have hsys : embExc e = .sys e := by
    rcases hk with rfl | rfl | hk
    · rfl
    · rfl
    · exact hl e hk
  have main : (embR out (fun a => Val.list (a.map groupVal)) (Obj.getCStat Z i x w)) = (.error (.sys e), emb out (Obj.getCStat Z i x w).2) := by
    rcases hr : Obj.getCStat Z i x w with ⟨e' | a, w'⟩ <;> rw [hr] at s3
    · dsimp only at s3
      subst s3
      show (Except.error (embExc e'), _) = _
      rw [hsys]
    · exact s3.elim
  refine ⟨⟨_, congrArg Prod.fst main, ?_⟩, ?_, ?_, ?_, ?_⟩
  · rcases hk with rfl | rfl | hk
    · exact .inl rfl
    · exact .inr (.inl rfl)
    · exact .inr (.inr ⟨e, hk, rfl⟩)
  · rw [main]; exact s1.1
  · rw [main]; exact List.IsPrefix.map _ s1.2
  · rw [main]; rfl
  · intro hv
    have e0 := attr_missing (old_records _ (usedRow_mem (first480 s0.rest)) _ (class_of hg) old hv) mem
    have : Obj.getCStat Z i x w = (.error .attributeError, w) := by
      unfold Obj.getCStat
      rw [M.bind_eq, ref_inst (x := x) (y := ⟨h.cls.Record, mem⟩) ⟨hx, hm⟩]
      dsimp only
      rw [M.bind_eq, e0]
      rfl
    rw [this]
    rfl

end

/-! ## Concrete cases -/

/-- Every version: a record object of the caller that announces two tasks, and a file with just their block, bytes of nines.
Two tasks come back, each showing nines, and the file is read to its end. -/
example (r : Row) (hr : r ∈ table) (fs : FileSystem) (args : CommandLine) : ∃ c : HeaderClass, ∃ B v t1 t2,
    headerByVersion r.version = some c ∧ layoutOf r.version = some B ∧
    let w : World := { file := { data := toyComp (List.replicate (2 * r.tstat) 9) }, heap := [toyHeader r, toyRecord r], headers := [⟨c, 0, v⟩] }
    let res := ((program toyZ fs args).at 5).call py!"atoparser" py!"get_tstat" [.file, .hdr 0, refVal ⟨c.Record, 1⟩] [] (emb [] w)
    res.1 = .ok (.list [t1, t2]) ∧ Displays ((program toyZ fs args).at 5) res.2 t1 B.tstat (List.replicate r.tstat 9) ∧
    Displays ((program toyZ fs args).at 5) res.2 t2 B.tstat (List.replicate r.tstat 9) ∧ res.2.file.rest = [] := by
  obtain ⟨h, hg, hb, -, hcl⟩ := toy_header_accepted r hr []
  have H := toyHeader_valid r hr
  have hu : usedRow (first480 (Stream.rest { data := toyHeader r ++ [] })) = r := by
    rw [show first480 (Stream.rest { data := toyHeader r ++ [] }) = toyHeader r by
      have := congrArg Header.buf (getHeader_ok hg).1
      rw [hb] at this; exact this.symm]
    unfold usedRow; rw [H.major, H.minor, rowFor_table r hr]; rfl
  obtain ⟨c', B, hc', hB, -, ⟨z1, -⟩, -⟩ := layout_facts hr
  obtain rfl : h.cls = c' := by rw [hcl] at hc'; exact Option.some.inj hc'
  obtain ⟨-, -, f3, f4, -⟩ := toyRecord_facts r hr
  have hsize : h.cls.size = 480 := z1
  let w : World := { file := { data := toyComp (List.replicate (2 * r.tstat) 9) }, heap := [toyHeader r, toyRecord r], headers := [⟨h.cls, 0, h.cache⟩] }
  have hw : w.header 0 = some h := by
    show some (Header.mk h.cls ((toyHeader r).take h.cls.size) h.cache) = some h
    rw [hsize, List.take_of_length_le (by rw [H.length]), ← hb]
  have A := C79_get_tstat toyZ fs args 0 [] (w := w) (by intro e he; cases he) (by
      intro o ho
      rw [List.mem_singleton.mp ho]
      show 0 < 2
      omega) hw hg (by rw [hu]; exact hB) (x := ⟨h.cls.Record, 1⟩) rfl (mem := toyRecord r) rfl
  rw [hu] at A
  have hz : toyZ ((toyComp (List.replicate (2 * r.tstat) 9)).take (2 * (2 * r.tstat) + 1)) = some (List.replicate (2 * r.tstat) 9) := by
    have := (toy_packs (List.replicate (2 * r.tstat) (9 : UInt8))).inv
    rw [List.take_of_length_le (by rw [toyComp_length]; simp)]
    exact this
  have found : tstatAt toyZ r w.file.short.isNone (toyRecord r) w.file.rest =
      .ok ([List.replicate r.tstat 9, List.replicate r.tstat 9], []) := by
    unfold tstatAt unpack takeBytes
    rw [f3, f4]
    rw [if_neg (by intro h; cases h.2)]
    dsimp only
    rw [show w.file.rest = toyComp (List.replicate (2 * r.tstat) 9) from rfl, hz]
    dsimp only
    unfold decodeTasks
    rw [if_neg (by simp)]
    have hd : (toyComp (List.replicate (2 * r.tstat) 9)).drop (2 * (2 * r.tstat) + 1) = [] :=
      List.drop_eq_nil_of_le (by rw [toyComp_length]; simp)
    rw [hd]
    simp [List.range_succ, show 2 * r.tstat - r.tstat = r.tstat by omega]
    omega
  obtain ⟨⟨v, v1, vs, rfl, v2, v3⟩, v4⟩ := A.gives _ _ found
  match vs, v2, v1, v3 with
  | [a, b], _, v1, v3 =>
    exact ⟨h.cls, B, h.cache, a, b, hcl, hB, v1, v3 0 _ _ rfl rfl, v3 1 _ _ rfl rfl, v4⟩


/-- The versions before 2.11: `get_cstat` on an empty file and a record of the caller. -/
example (r : Row) (hr : r ∈ table) (old : r.cstat = none) (fs : FileSystem) (args : CommandLine) : ∃ c : HeaderClass, ∃ v,
    headerByVersion r.version = some c ∧
    let w : World := { file := { data := [] }, heap := [toyHeader r, toyRecord r], headers := [⟨c, 0, v⟩] }
    ∃ e, (((program toyZ fs args).at 5).call py!"atoparser" py!"get_cstat" [.file, .hdr 0, refVal ⟨c.Record, 1⟩] [] (emb [] w)).1 = .error (.sys e) ∧
      (e = .attributeError ∨ e = .zlibError) := by
  obtain ⟨h, hg, hb, -, hcl⟩ := toy_header_accepted r hr []
  have H := toyHeader_valid r hr
  have hu : usedRow (first480 (Stream.rest { data := toyHeader r ++ [] })) = r := by
    rw [show first480 (Stream.rest { data := toyHeader r ++ [] }) = toyHeader r by
      have := congrArg Header.buf (getHeader_ok hg).1
      rw [hb] at this; exact this.symm]
    unfold usedRow; rw [H.major, H.minor, rowFor_table r hr]; rfl
  obtain ⟨c', B, hc', hB, -, ⟨z1, -⟩, -⟩ := layout_facts hr
  obtain rfl : h.cls = c' := by rw [hcl] at hc'; exact Option.some.inj hc'
  have hsize : h.cls.size = 480 := z1
  let w : World := { file := { data := [] }, heap := [toyHeader r, toyRecord r], headers := [⟨h.cls, 0, h.cache⟩] }
  have hw : w.header 0 = some h := by
    show some (Header.mk h.cls ((toyHeader r).take h.cls.size) h.cache) = some h
    rw [hsize, List.take_of_length_le (by rw [H.length]), ← hb]
  obtain ⟨⟨e, e1, e2⟩, -⟩ := C79_get_cstat_old toyZ fs args 0 [] (w := w) (by intro e he; cases he) (by
      intro o ho
      rw [List.mem_singleton.mp ho]
      show 0 < 2
      omega) hw hg (x := ⟨h.cls.Record, 1⟩) rfl (mem := toyRecord r) rfl (by rw [hu]; exact old)
  refine ⟨h.cls, h.cache, hcl, ?_⟩
  rcases e2 with rfl | rfl | ⟨e', e2, -⟩
  · exact ⟨_, e1, .inl rfl⟩
  · exact ⟨_, e1, .inr rfl⟩
  · cases e2

end Atop.Src
