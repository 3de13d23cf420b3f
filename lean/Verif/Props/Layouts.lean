import Verif.Spec.Sample
import Verif.Proofs.Layouts
import Verif.Props.Reader
import Verif.Props.Print
/-!
# Everything shown, by literal byte positions (C49)

`Verif/Spec/Layouts/*.lean` lists every number, text and list of every block of every version with its literal position.
-/

namespace Atop
open Spec

/-- The type of a header of class `c`. -/
abbrev headerType (c : HeaderClass) : CType := .struct (py!"Header:" ++ c.supportedVersion) c.fields []

set_option maxRecDepth 100000 in
theorem layouts_match : table.all (fun r => match headerByVersion r.version, layoutOf r.version with
    | some c, some B =>
      decide ((headerType c).node 0 = B.header ∧ c.Record.node 0 = B.record ∧ c.SStat.node 0 = B.sstat ∧ c.TStat.node 0 = B.tstat ∧
        c.CStat.map (fun t => t.node 0) = B.cstat) &&
      decide ((headerType c).size = 480 ∧ c.Record.size = r.record ∧ c.SStat.size = r.sstat ∧ c.TStat.size = r.tstat ∧
        c.CStat.map CType.size = r.cstat) &&
      decide (headerType c ∈ classes ∧ c.Record ∈ classes ∧ c.SStat ∈ classes ∧ c.TStat ∈ classes ∧ ∀ t ∈ c.CStat, t ∈ classes)
    | _, _ => false) = true := by decide +kernel

/-- What `struct_to_dict` makes of a block of a class. -/
theorem node_dict {t : CType} (ht : t ∈ classes) (mem : Bytes) (h : t.size ≤ mem.length) :
    ∃ v, structToDict ⟨t, mem.take t.size⟩ = .ok v ∧ (t.node 0).Shows mem 0 v := by
  obtain ⟨c, fs, lims, G⟩ := class_Good ht
  have hg := class_good ht
  obtain rfl := G.eq
  refine ⟨_, G.toDict _, ?_⟩
  have := node_type (.struct c fs lims) hg (by simp) rfl mem 0 0 (by omega)
  rwa [CType.val] at this

/-- The facts of the table for one version. -/
theorem layout_facts {r : Row} (hr : r ∈ table) : ∃ c B, headerByVersion r.version = some c ∧ layoutOf r.version = some B ∧
    ((headerType c).node 0 = B.header ∧ c.Record.node 0 = B.record ∧ c.SStat.node 0 = B.sstat ∧ c.TStat.node 0 = B.tstat ∧
      c.CStat.map (fun t => t.node 0) = B.cstat) ∧
    ((headerType c).size = 480 ∧ c.Record.size = r.record ∧ c.SStat.size = r.sstat ∧ c.TStat.size = r.tstat ∧
      c.CStat.map CType.size = r.cstat) ∧
    (headerType c ∈ classes ∧ c.Record ∈ classes ∧ c.SStat ∈ classes ∧ c.TStat ∈ classes ∧ ∀ t ∈ c.CStat, t ∈ classes) := by
  have := List.all_eq_true.mp layouts_match r hr
  cases hc : headerByVersion r.version with
  | none => rw [hc] at this; cases this
  | some c =>
    cases hB : layoutOf r.version with
    | none => rw [hc, hB] at this; cases this
    | some B =>
      rw [hc, hB] at this
      simp only [Bool.and_eq_true, decide_eq_true_eq] at this
      exact ⟨c, B, rfl, rfl, this.1.1, this.1.2, this.2⟩

/-- **C49** In every version, `struct_to_dict` of a header, record, system statistics, task or cgroup block has exactly
the entries of the literal layout, in its order, each showing the bytes at the listed position. -/
theorem C49_layout {r : Row} (hr : r ∈ table) : ∃ c B, headerByVersion r.version = some c ∧ layoutOf r.version = some B ∧
    (∀ mem : Bytes, mem.length = 480 → ∃ v, structToDict ⟨headerType c, mem⟩ = .ok v ∧ B.header.Shows mem 0 v) ∧
    (∀ mem : Bytes, mem.length = r.record → ∃ v, structToDict ⟨c.Record, mem⟩ = .ok v ∧ B.record.Shows mem 0 v) ∧
    (∀ mem : Bytes, mem.length = r.sstat → ∃ v, structToDict ⟨c.SStat, mem⟩ = .ok v ∧ B.sstat.Shows mem 0 v) ∧
    (∀ mem : Bytes, mem.length = r.tstat → ∃ v, structToDict ⟨c.TStat, mem⟩ = .ok v ∧ B.tstat.Shows mem 0 v) ∧
    (c.CStat.isSome = B.cstat.isSome ∧ B.cstat.isSome = r.cstat.isSome) ∧
    (∀ t n k, c.CStat = some t → B.cstat = some n → r.cstat = some k → ∀ mem : Bytes, mem.length = k →
      ∃ v, structToDict ⟨t, mem⟩ = .ok v ∧ n.Shows mem 0 v) := by
  obtain ⟨c, B, h1, h2, ⟨n1, n2, n3, n4, n5⟩, ⟨s1, s2, s3, s4, s5⟩, ⟨m1, m2, m3, m4, m5⟩⟩ := layout_facts hr
  have key : ∀ {t : CType} {n : Node} {k : Nat}, t ∈ classes → t.node 0 = n → t.size = k → ∀ mem : Bytes, mem.length = k →
      ∃ v, structToDict ⟨t, mem⟩ = .ok v ∧ n.Shows mem 0 v := by
    intro t n k ht hn hk mem hl
    obtain ⟨v, a, b⟩ := node_dict ht mem (by omega)
    rw [List.take_of_length_le (by omega)] at a
    exact ⟨v, a, hn ▸ b⟩
  refine ⟨c, B, h1, h2, key m1 n1 s1, key m2 n2 s2, key m3 n3 s3, key m4 n4 s4, ?_, ?_⟩
  · rw [← n5, ← s5]; simp
  · intro t n k ht hn hk
    rw [ht] at n5 s5
    rw [hn] at n5
    rw [hk] at s5
    exact key (m5 t ht) (Option.some.inj n5) (Option.some.inj s5)

/-- A converted sample shows the bytes of the sample by the literal layout of the version. -/
theorem entry_shows {r : Row} (hr : r ∈ table) {c : HeaderClass} (hc : headerByVersion r.version = some c) {B : Blocks}
    (hB : layoutOf r.version = some B) {hb : Bytes} (hlen : hb.length = 480) {w : WSample} (l1 : w.record.length = r.record)
    (l2 : w.sstat.length = r.sstat) (l3 : ∀ t ∈ w.tstats, t.length = r.tstat) (l4 : r.cstat = none → w.groups = [])
    (l5 : ∀ g ∈ w.groups, ∀ n, r.cstat = some n → n ≤ g.entry.length ∧ 4 * (g.pids.length / 4) = g.pids.length)
    {k : Option (Nat × Nat)} {ts cs : Bool} {v : JVal} (h : FullEntry (Header.inst ⟨c, hb, k⟩) ts cs (presented c w) v) :
    EntryShows B hb w ts cs v := by
  obtain ⟨c', B', hc', hB', ⟨n1, n2, n3, n4, n5⟩, ⟨s1, s2, s3, s4, s5⟩, ⟨m1, m2, m3, m4, m5⟩⟩ := layout_facts hr
  obtain rfl : c = c' := by rw [hc] at hc'; exact Option.some.inj hc'
  obtain rfl : B = B' := by rw [hB] at hB'; exact Option.some.inj hB'
  have key : ∀ {t : CType} {n : Node} {k : Nat}, t ∈ classes → t.node 0 = n → t.size = k → ∀ {mem : Bytes} {v : JVal},
      mem.length = k → structToDict ⟨t, mem⟩ = .ok v → n.Shows mem 0 v := by
    intro t n k ht hn hk mem v hl hv
    obtain ⟨v', a, b⟩ := node_dict ht mem (by omega)
    rw [List.take_of_length_le (by omega), hv] at a
    cases a
    exact hn ▸ b
  obtain ⟨hd, rd, sd, ts, cs, e1, e2, e3, ⟨k4, e4⟩, ⟨k5, e5⟩, rfl⟩ := h
  refine ⟨hd, rd, sd, ts, cs, rfl, key m1 n1 s1 hlen e1, key m2 n2 s2 l1 e2, key m3 n3 s3 l2 e3,
    ⟨by simpa [presented] using k4, ?_⟩, ?_⟩
  · intro j t v ht hv
    exact key m4 n4 s4 (l3 t (List.mem_of_getElem? ht)) (e4 j ⟨c.TStat, t⟩ v (by simp [presented, ht]) hv)
  · cases hcs : c.CStat with
    | none =>
      rw [hcs] at s5
      have hg := l4 s5.symm
      simp only [presented, hcs] at k5
      exact ⟨by rw [k5, hg]; rfl, fun j g v hgj => by rw [hg] at hgj; simp at hgj⟩
    | some t =>
      rw [hcs] at s5 n5
      simp only [presented, hcs] at k5 e5
      refine ⟨by simpa using k5, ?_⟩
      intro j g v hgj hvj
      have := e5 j (presentedGroup t g) v (by simp [hgj]) hvj
      obtain ⟨g1, g3⟩ := l5 g (List.mem_of_getElem? hgj) _ s5.symm
      have ht := m5 t hcs
      obtain ⟨v', ps, a1, -, a2, a3⟩ := C20_cgroup ht (g.entry.take t.size) g.pids (g.pids.length / 4)
      obtain ⟨v'', b1, b2⟩ := node_dict ht g.entry g1
      rw [a2] at b1
      cases b1
      rw [presentedGroup, a1] at this
      cases this
      refine ⟨_, n5.symm, ps, _, a3, b2, ?_, ?_⟩
      · rw [List.length_map, List.length_range]; omega
      · intro k p hk
        rw [List.getElem?_map] at hk
        cases hr : (List.range (g.pids.length / 4))[k]? with
        | none => rw [hr] at hk; cases hk
        | some q =>
          rw [hr] at hk
          obtain ⟨hq, hq'⟩ := List.getElem?_eq_some_iff.mp hr
          rw [List.getElem_range] at hq'
          subst hq'
          rw [List.length_range] at hq
          simp only [Option.map_some, Option.some.injEq] at hk
          subst hk
          refine ⟨_, rfl, ?_⟩
          rw [Nat.mul_comm k 4]
          exact storedInt_leInt (by decide) (by omega) true

/-- **C49** From file to document: `parse_file` on a complete log of any version prints one entry per written sample, and
every number, text and list in it shows the written bytes at the position listed for it, nothing else being printed. -/
theorem C49_document {Z : Zlib} {r : Row} (hr : r ∈ table) {hb : Bytes} (H : ValidHeader r hb)
    {ws : List WSample} (W : ∀ w ∈ ws, w.Valid Z r) (hmax : ws.length ≤ 86400) {o : Opts} (hp : o.parseables = [])
    (file : PyStr) {s : Stream} (hs : s.rest = hb ++ body r ws) (plain : s.short = none) :
    ∃ B docs, layoutOf r.version = some B ∧ (parseFile Z o file s).1 = .ok docs ∧ docs.length = ws.length ∧
      ∀ (i : Nat) w v, ws[i]? = some w → docs[i]? = some v → EntryShows B hb w o.showTstats o.showCstats v := by
  obtain ⟨c, docs, hc, h1, h2, h3⟩ := C29_written_log hr H W hmax hp file hs plain
  obtain ⟨c', B, hc', hB, -⟩ := layout_facts hr
  obtain rfl : c = c' := by rw [hc] at hc'; exact Option.some.inj hc'
  refine ⟨B, docs, hB, h1, h2, ?_⟩
  intro i w v hw hv
  have Wv := W w (List.mem_of_getElem? hw)
  refine entry_shows hr hc hB H.length Wv.record_len Wv.sstat_len Wv.tstat_len Wv.noGroups (fun g hg n hn => ?_) (h3 i w v hw hv)
  obtain ⟨g1, -, g3⟩ := Wv.groups g hg n hn
  exact ⟨g1, by omega⟩

/-- **C49** From file to printed text: when the path opens as a complete log of any version, `parse_file` prints a JSON
text that can be read in only one way, and so read it has one entry per written sample whose every number, text and list
shows the written bytes at the position listed for it. -/
theorem C49_printed {Z : Zlib} {r : Row} (hr : r ∈ table) {hb : Bytes} (H : ValidHeader r hb)
    {ws : List WSample} (W : ∀ w ∈ ws, w.Valid Z r) (hmax : ws.length ≤ 86400) {fs : FileSystem} {file : PyStr} {s : Stream}
    (hf : fs file (usesGzip file) = .ok s) (hs : s.rest = hb ++ body r ws) (plain : s.short = none) (ts cs : Bool) :
    ∃ B docs a, layoutOf r.version = some B ∧ docs.length = ws.length ∧
      (∀ (i : Nat) w v, ws[i]? = some w → docs[i]? = some v → EntryShows B hb w ts cs v) ∧
      Says (.list docs) a ∧ ∀ pretty, ∃ t, parseFileText Z fs file none pretty ts cs = .ok t ∧ JsonText true t a ∧
        ∀ b, JsonText true t b → b = a := by
  obtain ⟨B, docs, hB, h1, h2, h3⟩ := C49_document hr H W hmax (o := optsOf none ts cs) rfl file hs plain
  have hp : parsePath Z fs (optsOf none ts cs) file = .ok docs := by
    unfold parsePath
    rw [hf]
    exact h1
  obtain ⟨a, ha, hpr⟩ := C43_printed hp
  exact ⟨B, docs, a, hB, h2, h3, ha, hpr⟩

/-! ## The layout determines what is shown -/

mutual
/-- All integers have at least one byte. -/
def Spec.Node.wide : Node → Bool
  | .sint _ w => 0 < w
  | .uint _ w => 0 < w
  | .record rows => rows.wide
  | .list _ _ (some (_, w, _)) e => 0 < w && e.wide
  | .list _ _ none e => e.wide
  | _ => true
def Spec.NodeRows.wide : NodeRows → Bool
  | .nil => true
  | .cons _ n r => n.wide && r.wide
end

theorem storedInt_unique {mem : Bytes} {o w : Nat} {s : Bool} {k k' : Int} (hw : 0 < w) (h : StoredInt mem o w s k)
    (h' : StoredInt mem o w s k') : k = k' :=
  (C18_encoding w hw s).2 k k' h.1 h'.1 (h.2.symm.trans h'.2)

mutual
theorem node_unique : ∀ (n : Node), n.wide = true → ∀ (mem : Bytes) (shift : Nat) {v v' : JVal},
    n.Shows mem shift v → n.Shows mem shift v' → v = v'
  | .sint o w, hw, mem, shift, v, v', h, h' => by
    obtain ⟨k, rfl, hk⟩ := h
    obtain ⟨k', rfl, hk'⟩ := h'
    rw [storedInt_unique (by simpa [Node.wide] using hw) hk hk']
  | .uint o w, hw, mem, shift, v, v', h, h' => by
    obtain ⟨k, rfl, hk⟩ := h
    obtain ⟨k', rfl, hk'⟩ := h'
    rw [storedInt_unique (by simpa [Node.wide] using hw) hk hk']
  | .float o, hw, mem, shift, v, v', h, h' => by
    obtain ⟨k, rfl, hk⟩ := h
    obtain ⟨k', rfl, hk'⟩ := h'
    rw [Int.ofNat_inj.mp (storedInt_unique (by decide) hk hk')]
  | .char o, hw, mem, shift, v, v', h, h' => by
    obtain ⟨x, hx, rfl⟩ := h
    obtain ⟨x', hx', rfl⟩ := h'
    rw [hx] at hx'
    cases hx'
    rfl
  | .text o n, hw, mem, shift, v, v', h, h' => by
    obtain ⟨s, rfl, hs⟩ := h
    obtain ⟨s', rfl, hs'⟩ := h'
    rw [C19_deterministic hs hs']
  | .record rows, hw, mem, shift, v, v', h, h' => by
    obtain ⟨d, rfl, hd⟩ := h
    obtain ⟨d', rfl, hd'⟩ := h'
    rw [rows_unique rows (by simpa [Node.wide] using hw) mem shift hd hd']
  | .list cap stride count e, hw, mem, shift, v, v', h, h' => by
    obtain ⟨vs, rfl, hn, hv⟩ := h
    obtain ⟨vs', rfl, hn', hv'⟩ := h'
    have he : e.wide = true := by
      cases count with
      | none => simpa [Node.wide] using hw
      | some p => simp [Node.wide] at hw; exact hw.2
    have hl : vs.length = vs'.length := by
      cases count with
      | none => exact Eq.trans (b := cap) hn hn'.symm
      | some p =>
        simp only [Node.wide, Bool.and_eq_true, decide_eq_true_eq] at hw
        obtain ⟨c, hc, e1⟩ := hn
        obtain ⟨c', hc', e2⟩ := hn'
        rw [e1, e2, storedInt_unique hw.1 hc hc']
    congr 1
    refine List.ext_getElem hl fun i h1 h2 => ?_
    exact node_unique e he mem _ (hv i _ (List.getElem?_eq_getElem h1)) (hv' i _ (List.getElem?_eq_getElem h2))
theorem rows_unique : ∀ (r : NodeRows), r.wide = true → ∀ (mem : Bytes) (shift : Nat) {d d' : List (PyStr × JVal)},
    r.Shows mem shift d → r.Shows mem shift d' → d = d'
  | .nil, _, mem, shift, d, d', h, h' => Eq.trans (b := []) h h'.symm
  | .cons n x r, hw, mem, shift, d, d', h, h' => by
    simp only [NodeRows.wide, Bool.and_eq_true] at hw
    obtain ⟨v, t, rfl, hv, ht⟩ := h
    obtain ⟨v', t', rfl, hv', ht'⟩ := h'
    rw [node_unique x hw.1 mem shift hv hv', rows_unique r hw.2 mem shift ht ht']
end

set_option maxRecDepth 100000 in
theorem layouts_wide : layouts.all (fun p => p.2.header.wide && p.2.record.wide && p.2.sstat.wide && p.2.tstat.wide &&
    (match p.2.cstat with | none => true | some n => n.wide)) = true := by decide +kernel

/-- **C49** The layout says everything: two values showing the same bytes by the same layout are equal. -/
theorem C49_complete {v : PyStr} {B : Blocks} (hB : (v, B) ∈ layouts) {n : Node}
    (hn : n = B.header ∨ n = B.record ∨ n = B.sstat ∨ n = B.tstat ∨ some n = B.cstat) {mem : Bytes} {a b : JVal}
    (ha : n.Shows mem 0 a) (hb : n.Shows mem 0 b) : a = b := by
  have := List.all_eq_true.mp layouts_wide _ hB
  simp only [Bool.and_eq_true] at this
  obtain ⟨⟨⟨⟨h1, h2⟩, h3⟩, h4⟩, h5⟩ := this
  refine node_unique n ?_ mem 0 ha hb
  rcases hn with rfl | rfl | rfl | rfl | hn
  · exact h1
  · exact h2
  · exact h3
  · exact h4
  · rw [← hn] at h5; exact h5

/-- The toy log of every version as a document of three entries, with tasks and cgroups. -/
example (r : Row) (hr : r ∈ table) : ∃ B docs, layoutOf r.version = some B ∧
    (parseFile toyZ { showTstats := true, showCstats := true } py!"x" { data := toyHeader r ++ body r (toyLog r) }).1 = .ok docs ∧
    docs.length = 3 ∧ ∀ (i : Nat) w v, (toyLog r)[i]? = some w → docs[i]? = some v → EntryShows B (toyHeader r) w true true v :=
  C49_document hr (toyHeader_valid r hr) (toyLog_valid r hr) (by simp [toyLog]) (o := { showTstats := true, showCstats := true }) rfl
    py!"x" (s := { data := toyHeader r ++ body r (toyLog r) }) (by simp [Stream.rest]) rfl

/-- The same, printed. -/
example (r : Row) (hr : r ∈ table) : ∃ B docs a, layoutOf r.version = some B ∧ docs.length = 3 ∧
    (∀ (i : Nat) w v, (toyLog r)[i]? = some w → docs[i]? = some v → EntryShows B (toyHeader r) w true false v) ∧
    Says (.list docs) a ∧ ∀ pretty, ∃ t, parseFileText toyZ (oneFile (toyHeader r ++ body r (toyLog r))) py!"x" none pretty true false = .ok t ∧
      JsonText true t a ∧ ∀ b, JsonText true t b → b = a :=
  C49_printed hr (toyHeader_valid r hr) (toyLog_valid r hr) (by simp [toyLog]) (file := py!"x")
    (s := { data := toyHeader r ++ body r (toyLog r) }) rfl (by simp [Stream.rest]) rfl true false

/-- Reading a position off the layout: the system time of CPU 1 of a 2.12 log, when shown, is the 8-byte signed integer at
256 + 168. -/
example (mem : Bytes) (v : JVal) (h : L2_12.sstat.Shows mem 0 v) : ∃ d c l, v = .dict d ∧ d.lookup py!"cpu" = some (.dict c) ∧
    c.lookup py!"cpu" = some (.list l) ∧ ∀ x, l[1]? = some x → ∃ e k, x = .dict e ∧ e.lookup py!"stime" = some (.int k) ∧
      StoredInt mem (256 + 168) 8 true k := by
  obtain ⟨d, rfl, v1, d1, rfl, ⟨c, rfl, hc⟩, -⟩ := h
  obtain ⟨_, _, rfl, -, _, _, rfl, -, _, _, rfl, -, _, _, rfl, -, _, _, rfl, -, _, _, rfl, -, _, _, rfl, -, _, _, rfl, -,
    _, _, rfl, ⟨l, rfl, -, hl⟩, -⟩ := hc
  refine ⟨_, _, l, rfl, rfl, rfl, ?_⟩
  intro x hx
  obtain ⟨e, rfl, _, _, rfl, -, _, _, rfl, ⟨k, rfl, hk⟩, -⟩ := hl 1 x hx
  exact ⟨_, k, rfl, rfl, hk⟩

end Atop
