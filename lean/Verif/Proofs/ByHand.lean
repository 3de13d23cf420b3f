import Verif.Spec.ByHand
import Verif.Props.SourceResult
import Verif.Props.Protocol
/-!
# Reading by hand is stepping iterators that give one sample each
-/

namespace Atop.Src
open Spec
set_option maxRecDepth 20000

variable {Z : Zlib} {fs : FileSystem} {args : CommandLine} {out : PyStr} {w : World} {n i : Nat}
local notation "P" => program Z fs args

def sampleVal : Option Obj.Tuple → Val
  | none => .none
  | some x => tupleVal x

theorem int_ok {m : E Val} {w w' : W} {k : Int} (h : m w = (.ok (.int k), w')) : E.int m w = (.ok k, w') := by
  unfold E.int
  rw [E.bind_ok h]
  rfl

theorem int_err {m : E Val} {w w' : W} {e : PExc} (h : m w = (.error e, w')) : E.int m w = (.error e, w') := by
  unfold E.int
  rw [E.bind_err h]

/-- Reading by hand is reading a sample. -/
theorem byHand_eq (hl : LibFile w.file) {h : Header} (k : HeaderAt w i h) {v : Nat × Nat} (hv : h.cache = some v)
    (hc : h.cls ∈ versions) :
    byHand ((P).at (n + 3)) i (emb out w) = embR out sampleVal (Obj.readSample Z i v w) := by
  have hs : Sees w i h.cls := sees hl k.header
  have readers := fun (w : World) (hl : LibFile w.file) (k : HeaderAt w i h) (x : Ref) (hx : ∃ c ∈ versions, x.ty = c.Record) =>
    C68_readers Z fs args n out w hl i h k.header hc x hx
  rw [readSample_eq, M.bind_eq]
  unfold byHand
  have hrec : ((P).at (n + 3)).call py!"atoparser" py!"get_record" [.file, .hdr i] [] (emb out w) = embR out refVal (Obj.getRecord i w) :=
    (readers w hl k ⟨h.cls.Record, 0⟩ ⟨_, hc, rfl⟩).1
  have sim1 := sim_getRecord k
  rcases h1 : Obj.getRecord i w with ⟨e | x, w1⟩
  · rw [h1] at hrec
    rw [E.bind_err hrec]
    rfl
  rw [h1] at hrec
  unfold SimAt at sim1
  rw [h1] at sim1
  rw [E.bind_ok hrec]
  have hx : ∃ c ∈ versions, x.ty = c.Record := ⟨_, hc, record_ty hs h1⟩
  have hs1 := (Safe.record i).to h1 hs
  have k1 := k.ext sim1.1
  obtain ⟨y, r1⟩ : ∃ y, RefAt w1 x y := by
    have := sim1.2.2
    dsimp only at this
    split at this
    · next a b e1 e2 => cases e1; exact ⟨_, this.1⟩
    · next e1 e2 => cases e1
    · exact this.elim
  dsimp only
  unfold sampleRest
  have hat := view_attr (R := (P).at (n + 3)) (out := out) (w := w1) (x := x) (a := py!"scomplen")
      (by obtain ⟨cx, hcx, hxt⟩ := hx; rw [hxt]; exact record_ints cx hcx _ (by decide)) (by decide) (by decide)
  rw [M.bind_eq]
  rcases hm : attrM x py!"scomplen" w1 with ⟨(e | m), w2⟩
  · rw [hm] at hat
    rw [E.bind_err (int_err hat)]
    rfl
  rw [hm] at hat
  obtain rfl : w1 = w2 := (congrArg Prod.snd hm)
  rw [E.bind_ok (int_ok hat)]
  dsimp only
  by_cases hm0 : m ≤ 0
  · rw [if_pos hm0, if_pos hm0]
    rfl
  rw [if_neg hm0, if_neg hm0]
  rw [M.bind_eq]
  have hss := (readers w1 hs1.1 k1 x hx).2.1
  have sim2 := sim_getSStat Z k1 r1
  rcases h2 : Obj.getSStat Z i x w1 with ⟨e | ss, w2⟩
  · rw [h2] at hss
    rw [E.bind_err hss]
    rfl
  rw [h2] at hss
  unfold SimAt at sim2
  rw [h2] at sim2
  rw [E.bind_ok hss]
  dsimp only
  have hs2 := (Safe.sstat Z i x).to h2 hs1
  have k2 := k1.ext sim2.1
  have r2 := r1.ext sim2.1
  rw [M.bind_eq]
  have hts := (readers w2 hs2.1 k2 x hx).2.2.1
  have sim3 := sim_getTStat Z k2 hv r2
  rcases h3 : Obj.getTStat Z i x w2 with ⟨e | ts, w3⟩
  · rw [h3] at hts
    rw [E.bind_err hts]
    rfl
  rw [h3] at hts
  unfold SimAt at sim3
  rw [h3] at sim3
  rw [E.bind_ok hts]
  dsimp only
  have hs3 := (Safe.tstat Z i x).to h3 hs2
  have k3 := k2.ext sim3.1
  have hver : h.version = .ok v := by unfold Header.version; rw [hv]
  obtain ⟨v', hv', p1, p2⟩ := eval_part (Z := Z) (fs := fs) (args := args) (n := n + 1) (out := out) k3.header hc
  obtain rfl : v = v' := by rw [hver] at hv'; injection hv'
  rw [k3.latch hv] at p1 p2
  rw [E.bind_ok (int_ok p1), E.bind_ok (int_ok p2), M.bind_eq]
  have hcs := (readers w3 hs3.1 k3 x hx).2.2.2
  have hiff : ((v.1 : Int) ≥ 2 ∧ (v.2 : Int) ≥ 11) ↔ (v.1 ≥ 2 ∧ v.2 ≥ 11) := by omega
  by_cases hvv : v.1 ≥ 2 ∧ v.2 ≥ 11
  · rw [if_pos (hiff.mpr hvv), if_pos hvv]
    rcases h4 : Obj.getCStat Z i x w3 with ⟨e | cg, w4⟩
    · rw [h4] at hcs
      rw [E.bind_err hcs]
      rfl
    · rw [h4] at hcs
      rw [E.bind_ok hcs]
      rfl
  · rw [if_neg (fun h => hvv (hiff.mp h)), if_neg hvv]
    rfl

/-- The same as the first step of an iterator that may give one sample. -/
theorem readSample_next {h : Header} (k : HeaderAt w i h) {v : Nat × Nat} (hv : h.cache = some v) {max : Int} (hm : 1 ≤ max) :
    ((Obj.Gen.start (some i) max).next Z true w).1 = (match (Obj.readSample Z i v w).1 with
      | .ok (some x) => .yield x | .ok none => .stop | .error e => .raise e) ∧
    ((Obj.Gen.start (some i) max).next Z true w).2.2 = (Obj.readSample Z i v w).2 := by
  show (Obj.enterTry Z true i max w).1 = _ ∧ (Obj.enterTry Z true i max w).2.2 = _
  have hp : Obj.parsedVersion i w = (.ok v, w) := by
    unfold Obj.parsedVersion
    rw [M.bind_eq, k.look]
    dsimp only
    rw [M.bind_eq]
    unfold M.lift
    rw [parsed_ok (by unfold Header.version; rw [hv])]
    dsimp only
    rw [M.bind_eq, k.latch hv]
    rfl
  unfold Obj.enterTry
  rw [hp]
  dsimp only
  obtain ⟨m, hm⟩ : ∃ m, max.toNat = m + 1 := ⟨max.toNat - 1, by omega⟩
  rw [hm]
  unfold Obj.resumeLoop
  dsimp only
  rcases Obj.readSample Z i v w with ⟨e | _ | x, w'⟩
  · refine ⟨?_, rfl⟩
    show Obj.onError true e = _
    unfold Obj.onError
    split <;> rfl
  · exact ⟨rfl, rfl⟩
  · exact ⟨rfl, rfl⟩

theorem handOut_sample (r : Except Exc (Option Obj.Tuple) × World) : handOut (embR out sampleVal r).1 = outVal (match r.1 with
      | .ok (some x) => .yield x | .ok none => .stop | .error e => .raise e) := by
  rcases r with ⟨e | _ | x, w'⟩ <;> rfl

/-- Reading by hand gives what the first step of an iterator gives, in the same state. -/
theorem hand_next (hl : LibFile w.file) {h : Header} (k : HeaderAt w i h) (hv : h.cache.isSome)
    (hc : h.cls ∈ versions) {max : Int} (hm : 1 ≤ max) :
    handOut (byHand ((P).at (n + 3)) i (emb out w)).1 = outVal ((Obj.Gen.start (some i) max).next Z true w).1 ∧
    (byHand ((P).at (n + 3)) i (emb out w)).2 = emb out ((Obj.Gen.start (some i) max).next Z true w).2.2 := by
  obtain ⟨v, hv⟩ := Option.isSome_iff_exists.mp hv
  obtain ⟨h1, h2⟩ := readSample_next (Z := Z) k hv hm
  rw [byHand_eq hl k hv hc, h1, h2, handOut_sample]
  refine ⟨rfl, ?_⟩
  rcases Obj.readSample Z i v w with ⟨e | a, w'⟩ <;> rfl


theorem turns_eq : ∀ (ts : List Turn) (gs : List (Bool × Obj.Gen)) (ps : List PGen) (D : List (Bool × Obj.Gen)) (m : Nat) (w : World),
    AllSuspended Z fs args w gs ps → (∀ j op, .use j op ∈ ts → j < gs.length) → hands ts ≤ m →
    Sound w (gs ++ (D ++ List.replicate m (true, Obj.Gen.start (some i) 1))) → Ready w (.start (some i) 1) →
    turns ((P).at (n + 3)) i ts ps (emb out w) =
      (Obj.history Z (plan (gs.length + D.length) ts) (gs ++ (D ++ List.replicate m (true, Obj.Gen.start (some i) 1))) w).1.map
        fun r => (outVal r.2.1, emb out r.2.2)
  | [], _, _, _, _, _, _, _, _, _, _ => rfl
  | .write blk off bytes :: ts, gs, ps, D, m, w, A, hu, hm, S, Rd => by
    show turns _ i ts ps (pokeW (emb out w) blk off bytes) = _
    rw [poke_emb]
    exact turns_eq ts gs ps D m _ ⟨A.1, fun i g p hg hp => ⟨(A.2 i g p hg hp).1, (A.2 i g p hg hp).2.poke _ _ _⟩⟩
      (fun j op h => hu j op (List.mem_cons_of_mem _ h)) hm (S.poke _ _ _) (Rd.poke _ _ _)
  | .use j op :: ts, gs, ps, D, m, w, A, hu, hm, S, Rd => by
    have hj := hu j op (List.mem_cons_self ..)
    have hg : gs[j]? = some gs[j] := List.getElem?_eq_getElem hj
    generalize gs[j] = g at hg
    obtain ⟨rot, g⟩ := g
    have hp : ps[j]? = some (ps[j]'(by rw [← A.1]; exact hj)) := List.getElem?_eq_getElem _
    generalize ps[j]'(by rw [← A.1]; exact hj) = p at hp
    obtain ⟨h1, h2⟩ := A.2 j _ p hg hp
    obtain ⟨s1, s2, s3, s4⟩ := use_gen (op := op) (out := out) h1 h2
    have hg' : (gs ++ (D ++ List.replicate m (true, Obj.Gen.start (some i) 1)))[j]? = some (rot, g) := by
      rw [List.getElem?_append_left hj]; exact hg
    rw [plan, history_next Z _ w hg']
    have hset : (gs ++ (D ++ List.replicate m (true, Obj.Gen.start (some i) 1))).set j (rot, (g.use Z rot op w).2.1) =
        gs.set j (rot, (g.use Z rot op w).2.1) ++ (D ++ List.replicate m (true, Obj.Gen.start (some i) 1)) := List.set_append_left _ _ hj
    have S' := ((sound_stable Z).step S op hg').1
    rw [hset] at S' ⊢
    simp only [turns, hp, List.map_cons]
    rw [s1, s2]
    have ih := turns_eq ts (gs.set j (rot, (g.use Z rot op w).2.1)) (ps.set j (p.use op (emb out w)).2.1) D m (g.use Z rot op w).2.2
      ⟨by rw [List.length_set, List.length_set]; exact A.1, by
        intro j' g' p' hg' hp'
        by_cases hij : j = j'
        · subst hij
          rw [List.getElem?_set_self hj] at hg'
          rw [List.getElem?_set_self (by rw [← A.1]; exact hj)] at hp'
          cases hg'; cases hp'
          exact ⟨s3, s4⟩
        · rw [List.getElem?_set_ne hij] at hg' hp'
          exact ⟨(A.2 j' g' p' hg' hp').1, (A.2 j' g' p' hg' hp').2.use⟩⟩
      (fun j op h => by rw [List.length_set]; exact hu j op (List.mem_cons_of_mem _ h)) hm S' Rd.use
    rw [List.length_set] at ih
    rw [ih]
  | .hand :: ts, gs, ps, D, m, w, A, hu, hm, S, Rd => by
    obtain ⟨m, rfl⟩ : ∃ k, m = k + 1 := ⟨m - 1, by have : hands (.hand :: ts) = hands ts + 1 := rfl; omega⟩
    have hk : (gs ++ (D ++ List.replicate (m + 1) (true, Obj.Gen.start (some i) 1)))[gs.length + D.length]? = some (true, Obj.Gen.start (some i) 1) := by
      rw [List.getElem?_append_right (by omega), List.getElem?_append_right (by omega)]
      rw [show gs.length + D.length - gs.length - D.length = 0 by omega]
      rfl
    obtain ⟨g', G⟩ := S _ (List.mem_of_getElem? hk)
    obtain ⟨h, G⟩ : ∃ h, HeaderAt w i h ∧ h.cache.isSome := by
      unfold GNow at G
      split at G
      · next e => cases e
      · next e => cases e
      · next e => cases e; exact ⟨_, G.2⟩
      · next e => cases e
      · exact G.elim
    have hc : h.cls ∈ versions := by
      obtain ⟨c, hc, -, o, ho, rfl⟩ := Rd.2
      obtain ⟨o', b, e1, e2, -⟩ := G.1
      rw [ho] at e1; cases e1
      rw [← e2]; exact hc
    obtain ⟨s1, s2⟩ := hand_next (Z := Z) (fs := fs) (args := args) (n := n) (out := out) Rd.1 G.1 G.2 hc (max := 1) (Int.le_refl 1)
    rw [plan, history_next Z _ w hk]
    have S' := ((sound_stable Z).step S .next hk).1
    have hset : ∀ x, (gs ++ (D ++ List.replicate (m + 1) (true, Obj.Gen.start (some i) 1))).set (gs.length + D.length) x =
        gs ++ ((D ++ [x]) ++ List.replicate m (true, Obj.Gen.start (some i) 1)) := by
      intro x
      rw [List.set_append_right _ _ (by omega), List.set_append_right _ _ (by omega)]
      rw [show gs.length + D.length - gs.length - D.length = 0 by omega, List.replicate_succ, List.set_cons_zero, List.append_assoc]
      rfl
    rw [hset] at S' ⊢
    simp only [turns, List.map_cons]
    rw [s1, s2]
    have ih := turns_eq ts gs ps (D ++ [(true, ((Obj.Gen.start (some i) 1).use Z true .next w).2.1)]) m ((Obj.Gen.start (some i) 1).next Z true w).2.2
      ⟨A.1, fun j g p hg hp => ⟨(A.2 j g p hg hp).1, (A.2 j g p hg hp).2.use (op := .next)⟩⟩
      (fun j op h => hu j op (List.mem_cons_of_mem _ h)) (by have : hands (.hand :: ts) = hands ts + 1 := rfl; omega) S' (Rd.use (op := .next))
    rw [List.length_append, List.length_singleton, ← Nat.add_assoc] at ih
    rw [ih]
    rfl

/-- Iterators that have just been made. -/
theorem all_suspended (hl : LibFile w.file) (c : Calls)
    (hh : ∀ p ∈ c, ∀ i, p.2.1 = some i → ∃ h, w.header i = some h ∧ h.cls ∈ versions) :
    AllSuspended Z fs args w c.objects (c.map fun p => ((P).at (n + 5)).gen (genOf p)) := by
  refine ⟨by simp [Calls.objects], ?_⟩
  intro k g p hk hp
  unfold Calls.objects at hk
  rw [List.getElem?_map] at hk hp
  cases hc : c[k]? with
  | none => rw [hc] at hk; cases hk
  | some q =>
    rw [hc] at hk hp
    cases hk
    cases hp
    obtain ⟨rot, hd, max⟩ := q
    refine ⟨⟨n, _, ⟨rfl, ?_, rfl, rfl⟩, rfl⟩, hl, ?_⟩
    · cases hd <;> rfl
    · cases hd with
      | none => trivial
      | some i =>
        obtain ⟨h, h1, h2⟩ := hh _ (List.mem_of_getElem? hc) i rfl
        exact ⟨h.cls, h2, sees hl h1⟩

theorem start_next {h : Header} (k : HeaderAt w i h) {v : Nat × Nat} (hv : h.cache = some v) {left : Nat} :
    (Obj.Gen.start (some i) (left : Nat)).next Z true w = (Obj.Gen.loop i v left).next Z true w := by
  show Obj.enterTry Z true i (left : Nat) w = Obj.resumeLoop Z true i v left w
  have hp : Obj.parsedVersion i w = (.ok v, w) := by
    unfold Obj.parsedVersion
    rw [M.bind_eq, k.look]
    dsimp only
    rw [M.bind_eq]
    unfold M.lift
    rw [parsed_ok (by unfold Header.version; rw [hv])]
    dsimp only
    rw [M.bind_eq, k.latch hv]
    rfl
  unfold Obj.enterTry
  rw [hp]
  rfl

/-- Reading by hand again and again is stepping one iterator, until something else than a sample comes. -/
theorem hands_oneRun {v : Nat × Nat} : ∀ (N : Nat) (g : Obj.Gen) (w : World) (left : Nat) (h : Header), HeaderAt w i h → h.cache = some v →
    h.cls ∈ versions → LibFile w.file → N ≤ left → g = .start (some i) left ∨ g = .loop i v left →
    ∀ k : Nat, (∀ j < k, ∀ (o : POut) (w2 : W), (turns ((P).at (n + 3)) i (List.replicate N .hand) [] (emb out w))[j]? = some (o, w2) → o.isSample) →
      (turns ((P).at (n + 3)) i (List.replicate N .hand) [] (emb out w))[k]? =
        (oneRun Z true (List.replicate N .next) g w)[k]?.map fun (r : Obj.Out × World) => (outVal r.1, emb out r.2)
  | 0, _, _, _, _, _, _, _, _, _, _, _, _ => rfl
  | N + 1, g, w, left, h, k, hv, hc, hl, hN, hg, m, hs => by
    obtain ⟨left, rfl⟩ : ∃ j, left = j + 1 := ⟨left - 1, by omega⟩
    have hgen : g.next Z true w = (match Obj.readSample Z i v w with
        | (.ok (some x), w') => (.yield x, .loop i v left, w')
        | (.ok none, w') => (.stop, .done, w')
        | (.error e, w') => (.raise e, .done, w')) := by
      have hloop : (Obj.Gen.loop i v (left + 1)).next Z true w = (match Obj.readSample Z i v w with
          | (.ok (some x), w') => (.yield x, .loop i v left, w')
          | (.ok none, w') => (.stop, .done, w')
          | (.error e, w') => (.raise e, .done, w')) := by
        show Obj.resumeLoop Z true i v (left + 1) w = _
        unfold Obj.resumeLoop
        dsimp only
        rcases Obj.readSample Z i v w with ⟨e | _ | x, w'⟩
        · dsimp only
          unfold Obj.onError
          split <;> rfl
        · rfl
        · rfl
      rcases hg with rfl | rfl
      · rw [← hloop]
        exact start_next k hv
      · exact hloop
    have hb := byHand_eq (Z := Z) (fs := fs) (args := args) (n := n) (out := out) hl k hv hc
    have hext := (sim_readSample Z (v := v) k hv).1
    have hsafe := Safe.sample Z i v w
    rw [List.replicate_succ, List.replicate_succ] at *
    rw [oneRun]
    have hu : g.use Z true .next w = g.next Z true w := rfl
    rw [hu, hgen]
    simp only [turns] at hs ⊢
    rw [hb] at hs ⊢
    rcases hr : Obj.readSample Z i v w with ⟨e | _ | x, w'⟩ <;> rw [hr] at hs hext hsafe
    · cases m with
      | zero => rfl
      | succ m => cases hs 0 (Nat.succ_pos _) _ _ rfl
    · cases m with
      | zero => rfl
      | succ m => cases hs 0 (Nat.succ_pos _) _ _ rfl
    · cases m with
      | zero => rfl
      | succ m =>
        exact hands_oneRun N _ w' left h (k.ext hext) hv hc (hsafe.1 hl) (by omega) (.inr rfl) m
          (fun j hj o w2 ho => hs (j + 1) (by omega) o w2 ho)

/-- What a call of `generate_statistics` gives. -/
theorem gen_call (n : Nat) (p : Bool × Option Nat × Int) (s : W) :
    ((P).at (n + 5)).call py!"atoparser" py!"generate_statistics" [.file, headerArg p.2.1, .bool p.1, .int p.2.2] [] s = (.ok (genOf p), s) := by
  have hy : Text.Utils.generate_statistics.body.yields = true := by decide +kernel
  have hg : (P).globals py!"atoparser" py!"generate_statistics" =
      some (.fn py!"atoparser.utils" Text.Utils.generate_statistics [.none, .bool true, .int 86400]) := rfl
  have hcall : ∀ (as : List Val) (l : List (String × Val)) (s : W),
      bindArgs (withDefaults Text.Utils.generate_statistics.params [.none, .bool true, .int 86400]) as [] = some l →
      ((P).at (n + 5)).call py!"atoparser" py!"generate_statistics" as [] s =
        (.ok (.gen py!"atoparser.utils" Text.Utils.generate_statistics.body l), s) := by
    intro as l s hb
    unfold Rt.call
    rw [at_globals, hg]
    show callFn _ _ _ _ _ _ _ = _
    unfold callFn
    rw [hb]
    dsimp only
    rw [if_pos hy]
    rfl
  exact hcall _ _ s rfl

/-- Iterators over one file, only stepped: objects are only added. -/
theorem history_ext : ∀ (ops : List Obj.Op) (gs : List (Bool × Obj.Gen)) (w : World), Sound w gs →
    (∀ blk off bytes, .write blk off bytes ∉ ops) → ∀ (k : Nat) (r : Nat × Obj.Out × World), (Obj.history Z ops gs w).1[k]? = some r →
      w.Ext r.2.2 ∧ (∀ b ∈ r.2.1.blocks, b < r.2.2.heap.length) ∧
      ∀ m r', k ≤ m → (Obj.history Z ops gs w).1[m]? = some r' → r.2.2.Ext r'.2.2
  | [], _, _, _, _, _, _, h => by cases h
  | .write blk off bytes :: ops, _, _, _, hn, _, _, _ => absurd (List.mem_cons_self ..) (hn blk off bytes)
  | .use i op :: ops, gs, w, S, hn, k, r, h => by
    have hn' : ∀ blk off bytes, .write blk off bytes ∉ ops := fun a b c h => hn a b c (List.mem_cons_of_mem _ h)
    cases hgi : gs[i]? with
    | none =>
      rw [history_none Z ops w hgi] at h ⊢
      exact history_ext ops gs w S hn' k r h
    | some p =>
      obtain ⟨rot, g⟩ := p
      rw [history_next Z ops w hgi] at h ⊢
      obtain ⟨S', g', R⟩ := S.step Z (op := op) hgi
      have hb : ∀ b ∈ (g.use Z rot op w).1.blocks, b < (g.use Z rot op w).2.2.heap.length := by
        obtain ⟨l, mid, -, -, hw, -, -⟩ := R.new
        exact fun b hb => (hw.2 b hb).2
      cases k with
      | zero =>
        cases h
        refine ⟨R.ext, hb, ?_⟩
        intro m r' _ hr'
        cases m with
        | zero => cases hr'; exact World.Ext.refl _
        | succ m => exact (history_ext ops _ _ S' hn' m r' hr').1
      | succ k =>
        obtain ⟨i1, i2, i3⟩ := history_ext ops _ _ S' hn' k r h
        refine ⟨R.ext.trans i1, i2, ?_⟩
        intro m r' hm hr'
        obtain ⟨m, rfl⟩ : ∃ j, m = j + 1 := ⟨m - 1, by omega⟩
        exact i3 m r' (by omega) hr'

/-- What reading by hand leaves: objects are only added. -/
theorem hands_states {v : Nat × Nat} : ∀ (N : Nat) (w : World) (h : Header), HeaderAt w i h → h.cache = some v →
    h.cls ∈ versions → LibFile w.file → ∀ (m : Nat) (o : POut) (w3 : W),
      (turns ((P).at (n + 3)) i (List.replicate N .hand) [] (emb out w))[m]? = some (o, w3) → ∃ w' : World, w3 = emb out w' ∧ w.Ext w' ∧ LibFile w'.file
  | 0, _, _, _, _, _, _, _, _, _, hm => by cases hm
  | N + 1, w, h, k, hv, hc, hl, m, o, w3, hm => by
    have hb := byHand_eq (Z := Z) (fs := fs) (args := args) (n := n) (out := out) hl k hv hc
    have hext := (sim_readSample Z (v := v) k hv).1
    have hsafe := Safe.sample Z i v w
    rw [List.replicate_succ] at hm
    simp only [turns] at hm
    have h2 : (byHand ((P).at (n + 3)) i (emb out w)).2 = emb out (Obj.readSample Z i v w).2 := by
      rw [hb]
      rcases Obj.readSample Z i v w with ⟨e | a, w'⟩ <;> rfl
    rw [h2] at hm
    cases m with
    | zero => cases hm; exact ⟨_, rfl, hext, hsafe.1 hl⟩
    | succ m =>
      obtain ⟨w', e1, e2, e3⟩ := hands_states N _ h (k.ext hext) hv hc (hsafe.1 hl) m o w3 hm
      exact ⟨w', e1, hext.trans e2, e3⟩

theorem turns_hands_length (R : Rt) : ∀ (N : Nat) (w : W), (turns R i (List.replicate N .hand) [] w).length = N
  | 0, _ => rfl
  | N + 1, w => by
    rw [List.replicate_succ]
    simp only [turns, List.length_cons]
    rw [turns_hands_length R N]

/-- What comes after a sample read by hand extends the memory it is in. -/
theorem hands_later {v : Nat × Nat} (N : Nat) (w : World) (h : Header) (hv : h.cache = some v)
    (hc : h.cls ∈ versions) (a : Nat) {o : POut} {wa : World}
    (ha : (turns ((P).at (n + 3)) i (List.replicate N .hand) [] (emb out w))[a]? = some (o, emb out wa)) (la : LibFile wa.file)
    (ka : HeaderAt wa i h) (m : Nat) (hm : a ≤ m) {o' : POut} {w3 : W}
    (h3 : (turns ((P).at (n + 3)) i (List.replicate N .hand) [] (emb out w))[m]? = some (o', w3)) : ∃ w' : World, w3 = emb out w' ∧ wa.Ext w' := by
  have key : ∀ (a N : Nat) (w0 : W) (o : POut) (w1 : W), (turns ((P).at (n + 3)) i (List.replicate N .hand) [] w0)[a]? = some (o, w1) →
      ∃ N', ∀ m, (turns ((P).at (n + 3)) i (List.replicate N .hand) [] w0)[a + 1 + m]? =
        (turns ((P).at (n + 3)) i (List.replicate N' .hand) [] w1)[m]? := by
    intro a
    induction a with
    | zero =>
      intro N w0 o w1 h
      cases N with
      | zero => cases h
      | succ N =>
        rw [List.replicate_succ] at h ⊢
        simp only [turns] at h ⊢
        cases h
        refine ⟨N, fun m => ?_⟩
        rw [show 0 + 1 + m = m + 1 by omega, List.getElem?_cons_succ]
    | succ a ih =>
      intro N w0 o w1 h
      cases N with
      | zero => cases h
      | succ N =>
        rw [List.replicate_succ] at h ⊢
        simp only [turns] at h ⊢
        rw [List.getElem?_cons_succ] at h
        obtain ⟨N', h'⟩ := ih N _ o w1 h
        refine ⟨N', fun m => ?_⟩
        rw [show a + 1 + 1 + m = (a + 1 + m) + 1 by omega, List.getElem?_cons_succ]
        exact h' m
  rcases Nat.eq_or_lt_of_le hm with rfl | hm
  · rw [ha] at h3; cases h3; exact ⟨wa, rfl, World.Ext.refl _⟩
  · obtain ⟨N', h'⟩ := key a N _ _ _ ha
    obtain ⟨d, rfl⟩ : ∃ d, m = a + 1 + d := ⟨m - (a + 1), by omega⟩
    rw [h' d] at h3
    obtain ⟨w', e1, e2, -⟩ := hands_states N' wa h ka hv hc la d o' w3 h3
    exact ⟨w', e1, e2⟩

/-- An iterator of the model and the samples it must give. -/
theorem run_facts {rot : Bool} {hd : Option Nat} {hd' : Option Header} {max : Int}
    (G : GNow w (.start hd max) (.start hd' max)) {c : HeaderClass} {found : List WSample} {en : End}
    (h1 : (generateStatistics Z hd' rot max w.file).1 = found.map (presented c))
    (h2 : (generateStatistics Z hd' rot max w.file).2.1 = en) (N k : Nat) {r : Obj.Out × World}
    (hk : (oneRun Z rot (List.replicate N .next) (.start hd max) w)[k]? = some r) :
    w.Ext r.2 ∧ (∀ f, found[k]? = some f → ∃ x, r.1 = .yield x ∧ (∀ b ∈ x.blocks, b < r.2.heap.length) ∧ r.2.tuple x = presented c f) ∧
    (k = found.length → outVal r.1 = endVal en) := by
  have outs := run_outs Z (rot := rot) N _ _ w G
  obtain ⟨e1, hb, -⟩ := run_ext Z _ _ _ w G k r hk
  have ho : (nexts Z rot N (.start hd' max) w.file)[k]? = some (r.2.out r.1) := by
    rw [← outs, List.getElem?_map, hk]; rfl
  obtain ⟨a1, a2, -⟩ := nexts_get Z rot N _ _ k _ ho
  have all : allOf Z rot (.start hd' max) w.file = found.map (presented c) := h1
  rw [all, List.length_map] at a2
  rw [all] at a1
  refine ⟨e1, ?_, ?_⟩
  · intro f hf
    have := a1 (presented c f) (by rw [List.getElem?_map, hf]; rfl)
    cases hr1 : r.1 with
    | stop => rw [hr1] at this; cases this
    | raise e => rw [hr1] at this; cases this
    | yield x =>
      rw [hr1] at this hb
      injection this with hx
      exact ⟨x, rfl, hb, hx⟩
  · intro hk'
    have := a2 hk'
    rw [endingOf, h2] at this
    cases en with
    | returned =>
      cases hr1 : r.1 with
      | stop => rfl
      | raise e => rw [hr1] at this; cases this
      | yield x => rw [hr1] at this; cases this
    | raised e =>
      cases hr1 : r.1 with
      | stop => rw [hr1] at this; cases this
      | raise e => rw [hr1] at this; cases this; rfl
      | yield x => rw [hr1] at this; cases this

/-! ## Only hands and `next()` -/

/-- The iterators stepped. -/
def schedOf : Nat → List Turn → List Nat
  | _, [] => []
  | k, .hand :: ts => k :: schedOf (k + 1) ts
  | k, .use j _ :: ts => j :: schedOf k ts
  | k, .write .. :: ts => schedOf k ts

theorem OnlyReads.tail {b : Nat} {t : Turn} {ts : List Turn} (h : OnlyReads b (t :: ts)) : OnlyReads b ts :=
  fun t ht => h t (List.mem_cons_of_mem _ ht)

theorem steps_plan {b : Nat} : ∀ (k : Nat) (ts : List Turn), OnlyReads b ts → stepsOf (plan k ts) = (schedOf k ts).map fun i => (i, .next)
  | _, [], _ => rfl
  | k, t :: ts, h => by
    rcases h t (List.mem_cons_self ..) with rfl | ⟨j, -, rfl⟩
    · rw [plan, schedOf, List.map_cons, ← steps_plan (k + 1) ts h.tail]; rfl
    · rw [plan, schedOf, List.map_cons, ← steps_plan k ts h.tail]; rfl

theorem plan_no_write {b : Nat} : ∀ (k : Nat) (ts : List Turn), OnlyReads b ts → ∀ blk off bytes, .write blk off bytes ∉ plan k ts
  | _, [], _, _, _, _ => nofun
  | k, t :: ts, h, _, _, _ => by
    rcases h t (List.mem_cons_self ..) with rfl | ⟨j, -, rfl⟩
    · intro hm
      rcases List.mem_cons.mp hm with hm | hm
      · cases hm
      · exact plan_no_write (k + 1) ts h.tail _ _ _ hm
    · intro hm
      rcases List.mem_cons.mp hm with hm | hm
      · cases hm
      · exact plan_no_write k ts h.tail _ _ _ hm

theorem used_next : ∀ (sched : List Nat) (gs : List (Bool × Gen)) (s : Stream),
    used Z (sched.map fun i => (i, .next)) gs s = interleave Z sched gs s
  | [], _, _ => rfl
  | i :: sched, gs, s => by
    rw [List.map_cons, used, interleave]
    cases gs[i]? with
    | none => exact used_next sched gs s
    | some p =>
      obtain ⟨rot, g⟩ := p
      dsimp only
      rw [used_next sched]
      rfl

theorem interleave_fst : ∀ (sched : List Nat) (gs : List (Bool × Gen)) (s : Stream), (∀ i ∈ sched, i < gs.length) →
    (interleave Z sched gs s).1.map Prod.fst = sched
  | [], _, _, _ => rfl
  | i :: sched, gs, s, h => by
    rw [interleave, List.getElem?_eq_getElem (h i (List.mem_cons_self ..))]
    dsimp only
    rw [List.map_cons, interleave_fst sched _ _ (by
      intro j hj
      rw [List.length_set]
      exact h j (List.mem_cons_of_mem _ hj))]

theorem sched_length {b : Nat} : ∀ (k : Nat) (ts : List Turn), OnlyReads b ts → (schedOf k ts).length = ts.length
  | _, [], _ => rfl
  | k, t :: ts, h => by
    rcases h t (List.mem_cons_self ..) with rfl | ⟨j, -, rfl⟩
    · rw [schedOf, List.length_cons, List.length_cons, sched_length (k + 1) ts h.tail]
    · rw [schedOf, List.length_cons, List.length_cons, sched_length k ts h.tail]

theorem sched_lt {b : Nat} : ∀ (k : Nat) (ts : List Turn), OnlyReads b ts → b ≤ k → ∀ i ∈ schedOf k ts, i < k + hands ts
  | _, [], _, _, _, h => by cases h
  | k, t :: ts, h, hb, i, hi => by
    rcases h t (List.mem_cons_self ..) with rfl | ⟨j, hj, rfl⟩
    · show i < k + (hands ts + 1)
      rcases List.mem_cons.mp hi with rfl | hi
      · omega
      · have := sched_lt (k + 1) ts h.tail (by omega) i hi
        omega
    · show i < k + hands ts
      rcases List.mem_cons.mp hi with rfl | hi
      · omega
      · exact sched_lt k ts h.tail hb i hi

/-- An iterator stepped for a hand is new. -/
theorem sched_hand {b : Nat} : ∀ (k : Nat) (ts : List Turn), OnlyReads b ts → b ≤ k → ∀ (m : Nat), ts[m]? = some .hand →
    ∃ i, (schedOf k ts)[m]? = some i ∧ b ≤ i ∧ k ≤ i ∧ i ∉ (schedOf k ts).take m
  | _, [], _, _, _, h => by cases h
  | k, t :: ts, h, hb, m, hm => by
    rcases h t (List.mem_cons_self ..) with rfl | ⟨j, hj, rfl⟩
    · rw [schedOf]
      cases m with
      | zero => exact ⟨k, rfl, hb, Nat.le_refl _, nofun⟩
      | succ m =>
        obtain ⟨i, h1, h2, h3, h4⟩ := sched_hand (k + 1) ts h.tail (by omega) m hm
        refine ⟨i, h1, h2, by omega, ?_⟩
        rw [List.take_succ_cons]
        intro hh
        rcases List.mem_cons.mp hh with rfl | hh
        · omega
        · exact h4 hh
    · rw [schedOf]
      cases m with
      | zero => cases hm
      | succ m =>
        obtain ⟨i, h1, h2, h3, h4⟩ := sched_hand k ts h.tail hb m hm
        refine ⟨i, h1, h2, h3, ?_⟩
        rw [List.take_succ_cons]
        intro hh
        rcases List.mem_cons.mp hh with rfl | hh
        · omega
        · exact h4 hh

theorem sched_use {b : Nat} : ∀ (k : Nat) (ts : List Turn), OnlyReads b ts → ∀ (m j : Nat), ts[m]? = some (.use j .next) →
    (schedOf k ts)[m]? = some j
  | _, [], _, _, _, h => by cases h
  | k, t :: ts, h, m, j, hm => by
    rcases h t (List.mem_cons_self ..) with rfl | ⟨j, hj, rfl⟩
    · rw [schedOf]
      cases m with
      | zero => cases hm
      | succ m => exact sched_use (k + 1) ts h.tail m _ hm
    · rw [schedOf]
      cases m with
      | zero => cases hm; rfl
      | succ m => exact sched_use k ts h.tail m _ hm

/-! ## Counting -/

theorem got_yield {j : Nat} {x : Sample} {l : List (Nat × Out)} : samplesGot ((j, .yield x) :: l) = x :: samplesGot l := rfl
theorem got_stop {j : Nat} {l : List (Nat × Out)} : samplesGot ((j, .stop) :: l) = samplesGot l := rfl
theorem got_raise {j : Nat} {e : Exc} {l : List (Nat × Out)} : samplesGot ((j, .raise e) :: l) = samplesGot l := rfl
theorem out_yield {w : World} {x : Obj.Tuple} : w.out (.yield x) = .yield (w.tuple x) := rfl
theorem out_stop {w : World} : w.out .stop = .stop := rfl
theorem out_raise {w : World} {e : Exc} : w.out (.raise e) = .raise e := rfl

theorem samplesIn_eq : ∀ (l : List (Nat × Obj.Out × World)), samplesIn (l.map fun r => (outVal r.2.1, emb out r.2.2)) =
    (samplesGot (l.map fun r => (r.1, r.2.2.out r.2.1))).length
  | [] => rfl
  | (j, o, w) :: l => by
    have := samplesIn_eq l
    unfold samplesIn at this ⊢
    rw [List.map_cons, List.map_cons]
    dsimp only
    cases o with
    | yield x => rw [List.filter_cons_of_pos (by rfl), out_yield, got_yield, List.length_cons, List.length_cons, this]
    | stop => rw [List.filter_cons_of_neg (by nofun), out_stop, got_stop, this]
    | raise e => rw [List.filter_cons_of_neg (by nofun), out_raise, got_raise, this]

theorem samplesFrom_eq {b j : Nat} (hj : j < b) : ∀ (ts : List Turn) (k : Nat) (l : List (Nat × Obj.Out × World)), OnlyReads b ts → b ≤ k →
    l.map Prod.fst = schedOf k ts → ∀ m, samplesFrom j ((ts.zip (l.map fun r => (outVal r.2.1, emb out r.2.2))).take m) =
      (samplesBy j ((l.take m).map fun r => (r.1, r.2.2.out r.2.1))).length
  | _, _, _, _, _, _, 0 => rfl
  | [], _, l, _, _, h, m + 1 => by
    cases l with
    | nil => rfl
    | cons a l => cases h
  | t :: ts, k, l, h, hb, hl, m + 1 => by
    obtain ⟨idx, k', hidx, hk', hs⟩ : ∃ idx k', (t.isNext j = (idx == j)) ∧ b ≤ k' ∧ schedOf k (t :: ts) = idx :: schedOf k' ts := by
      rcases h t (List.mem_cons_self ..) with rfl | ⟨j', hj', rfl⟩
      · refine ⟨k, k + 1, ?_, by omega, rfl⟩
        show false = _
        exact (beq_eq_false_iff_ne.mpr (by omega)).symm
      · exact ⟨j', k, rfl, hb, rfl⟩
    rw [hs] at hl
    cases l with
    | nil => cases hl
    | cons a l =>
      obtain ⟨a, o, w⟩ := a
      injection hl with h1 h2
      dsimp only at h1
      subst h1
      have ih := samplesFrom_eq hj ts k' l h.tail hk' h2 m
      unfold samplesFrom samplesBy at ih ⊢
      rw [List.map_cons, List.zip_cons_cons, List.take_succ_cons, List.take_succ_cons, List.map_cons]
      rw [List.filter_cons, List.filter_cons]
      dsimp only
      rw [hidx]
      cases hij : (a == j) with
      | false => exact ih
      | true =>
        cases o with
        | yield x =>
          rw [if_pos (by rfl), if_pos rfl, out_yield, got_yield, List.length_cons, List.length_cons, ih]
        | stop => rw [if_neg (by nofun), out_stop, if_pos rfl, got_stop, ih]
        | raise e => rw [if_neg (by nofun), out_raise, if_pos rfl, got_raise, ih]

theorem samplesBy_none {i : Nat} : ∀ (l : List (Nat × Out)), i ∉ l.map Prod.fst → samplesBy i l = []
  | [], _ => rfl
  | (j, o) :: l, h => by
    have hj : (j == i) = false := beq_eq_false_iff_ne.mpr fun e => h (by rw [e]; exact List.mem_cons_self ..)
    have := samplesBy_none l fun hm => h (List.mem_cons_of_mem _ hm)
    unfold samplesBy at this ⊢
    rw [List.filter_cons]
    dsimp only
    rw [hj]
    exact this

/-- The sample given at step `k`. -/
theorem samplesGot_get : ∀ (l : List (Nat × Out)) (k : Nat) {j : Nat} {x : Sample}, l[k]? = some (j, .yield x) →
    (samplesGot l)[(samplesGot (l.take k)).length]? = some x
  | [], _, _, _, h => by cases h
  | a :: l, 0, j, x, h => by
    cases h
    rw [got_yield]
    rfl
  | (j', o) :: l, k + 1, j, x, h => by
    have ih := samplesGot_get l k (j := j) (x := x) h
    rw [List.take_succ_cons]
    cases o with
    | yield y =>
      rw [got_yield, got_yield, List.length_cons, List.getElem?_cons_succ]
      exact ih
    | stop => rw [got_stop, got_stop]; exact ih
    | raise e => rw [got_raise, got_raise]; exact ih

end Atop.Src
