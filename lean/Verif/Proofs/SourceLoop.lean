import Verif.Proofs.SourceResult
/-!
# A `for` loop of the caller over `generate_statistics(raw_file, header)`

For any body that does not change the objects and ends without yielding.
-/

namespace Atop.Src
open Spec
set_option maxRecDepth 20000

/-- How the loop goes on after the end of the iteration. -/
def endCtl : End → Ctl
  | .returned => .next
  | .raised e => .exc (embExc e)

/-- How the loop ends after its body ended in another way than going on. -/
def leftLoop : Ctl → Ctl
  | .brk => .next
  | c => c

/-- The body is run for the samples in order, each run ending and printing as `Rel` says, until it does not go on or the
samples are over. -/
inductive Ran (Rel : Sample → Ctl → PyStr → Prop) (en : End) : List Sample → Ctl → PyStr → Prop
  | over : Ran Rel en [] (endCtl en) []
  | next {x xs c t u} : Rel x .next t → Ran Rel en xs c u → Ran Rel en (x :: xs) c (t ++ u)
  | leave {x xs c t} : Rel x c t → c ≠ .next → Ran Rel en (x :: xs) (leftLoop c) t

/-- The names of the loop. -/
def loopTargets : List String := ["record", "sstat", "tstats", "cgroups"]

section
variable {Z : Zlib} {fs : FileSystem} {args : CommandLine}

theorem caller_loop {h : Header} {v : Nat × Nat} {r cg} (R : Atop.Ready h r v cg) (hca : h.cache = some v)
    {i : Nat} {rot : Bool} {body : Env → W → Co (Ctl × Env)} {Rel : Sample → Ctl → PyStr → Prop}
    (hbody : ∀ (w : World) (x : Obj.Tuple) (env : Env) (out : PyStr), HeaderAt w i h → Filled h (w.tuple x) → TupleVars i x env →
      ∃ c env' t, body env (emb out w) = .ret (c, env') (emb (out ++ t) w) ∧ Rel (w.tuple x) c t ∧ env' "header" = some (.hdr i)) :
    ∀ (fuel : Nat) {left : Nat} {g : Obj.Gen} {g' : Gen} {k : Option PExc → W → Co (Ctl × Env)} {w : World} {env : Env} {out : PyStr},
    Suspended Z fs args rot g (.live k) → Ready w g → GNow w g g' → GenOf h v left g' → ObjOf i g → left < fuel →
    env "header" = some (.hdr i) →
    ∃ c env' w' t, forGen loopTargets body (k none (emb out w)) env = .ret (c, env') (emb (out ++ t) w') ∧
      Ran Rel (endingOf Z rot g' w.file) (allOf Z rot g' w.file) c t
  | 0, _, _, _, _, _, _, _, _, _, _, _, _, hl, _ => by omega
  | fuel + 1, left, g, g', k, w, env, out, hsus, hrd, hnow, hof, hob, hl, hvar => by
    obtain ⟨s1, s2, s3, s4⟩ := step_gen (out := out) hsus hrd
    obtain ⟨-, r2, r3, r4, -⟩ := next_rel Z rot hnow
    have hall := next_all Z rot g' w.file
    have hend := next_ending Z rot g' w.file
    rw [next_live] at s1 s2 s3
    rcases hno : g.next Z rot w with ⟨ou, g1, w1⟩
    rcases hng : g'.next Z rot w.file with ⟨ou', g1', f1⟩
    rw [hno] at s1 s2 s3 s4 r2 r3 r4
    rw [hng] at r2 r3 r4 hall hend
    dsimp only at s1 s2 s3 s4 r2 r3 r4
    subst r3
    cases ou with
    | stop =>
      have hall : allOf Z rot g' w.file = [] := hall.1
      have hend : Out.stop = endOut (endingOf Z rot g' w.file) := hend
      have he : endingOf Z rot g' w.file = .returned := by
        cases hq : endingOf Z rot g' w.file with
        | returned => rfl
        | raised e => rw [hq] at hend; cases hend
      rw [hall, he]
      cases hk : k none (emb out w) with
      | yield a b c => rw [hk] at s1; cases s1
      | ret q b =>
        obtain ⟨ctl, env0⟩ := q
        rw [hk] at s1 s2
        cases ctl with
        | exc e => cases s1
        | _ => exact ⟨_, env, w1, [], by rw [show b = emb out w1 from s2, List.append_nil]; rfl, .over⟩
    | raise e =>
      have hall : allOf Z rot g' w.file = [] := hall.1
      have hend : Out.raise e = endOut (endingOf Z rot g' w.file) := hend
      have he : endingOf Z rot g' w.file = .raised e := by
        cases hq : endingOf Z rot g' w.file with
        | returned => rw [hq] at hend; cases hend
        | raised e' => rw [hq] at hend; injection hend with hend; rw [hend]
      rw [hall, he]
      cases hk : k none (emb out w) with
      | yield a b c => rw [hk] at s1; cases s1
      | ret q b =>
        obtain ⟨ctl, env0⟩ := q
        rw [hk] at s1 s2
        cases ctl with
        | exc e' =>
          have : e' = embExc e := POut.raise.inj s1
          exact ⟨_, env, w1, [], by rw [this, show b = emb out w1 from s2, List.append_nil]; rfl, .over⟩
        | _ => cases s1
    | yield x =>
      have hall : allOf Z rot g' w.file = w1.tuple x :: allOf Z rot g1' f1 := hall
      have hend : endingOf Z rot g' w.file = endingOf Z rot g1' f1 := hend
      cases hk : k none (emb out w) with
      | ret q b =>
        obtain ⟨ctl, env0⟩ := q
        rw [hk] at s1
        cases ctl <;> cases s1
      | yield a b c =>
        rw [hk] at s1 s2 s3
        have ha : a = tupleVal x := POut.yield.inj s1
        have hb : b = emb out w1 := s2
        subst ha hb
        obtain ⟨hfill, k', rfl, rfl⟩ := next_filled R hca hof hng
        have hob1 := next_obj hob hno
        have hat : HeaderAt w1 i h := by
          rcases hob1 with ⟨max, rfl⟩ | ⟨v', left', rfl⟩
          · exact r4.elim
          · exact r4.2.2.1
        have heq : forGen loopTargets body (.yield (tupleVal x) (emb out w1) c) env =
          (body ((((env.set "record" (refVal x.record)).set "sstat" (refVal x.sstat)).set "tstats"
            (.list (x.tstats.map refVal))).set "cgroups" (.list (x.cgroups.map groupVal))) (emb out w1)).bind
          (loopNext (fun env'' w' => forGen loopTargets body (c none w') env'')) := rfl
        have hv1 : TupleVars i x ((((env.set "record" (refVal x.record)).set "sstat" (refVal x.sstat)).set "tstats"
            (.list (x.tstats.map refVal))).set "cgroups" (.list (x.cgroups.map groupVal))) := ⟨hvar, rfl, rfl, rfl, rfl⟩
        rw [heq, hall, hend]
        generalize (((env.set "record" (refVal x.record)).set "sstat" (refVal x.sstat)).set "tstats"
            (.list (x.tstats.map refVal))).set "cgroups" (.list (x.cgroups.map groupVal)) = env1 at hv1
        obtain ⟨ctl, env2, t, q1, q2, q3⟩ := hbody w1 x env1 out hat hfill hv1
        rw [q1]
        cases ctl with
        | next =>
          obtain ⟨c', env3, w3, u, i1, i2⟩ := caller_loop R hca hbody fuel (out := out ++ t) s3 s4 r4 (.inr rfl) hob1 (by omega) q3
          rw [r2] at i2
          exact ⟨c', env3, w3, t ++ u, by rw [← List.append_assoc]; exact i1, .next q2 i2⟩
        | brk => exact ⟨_, env2, w1, t, rfl, .leave q2 nofun⟩
        | ret a => exact ⟨_, env2, w1, t, rfl, .leave q2 nofun⟩
        | exc e => exact ⟨_, env2, w1, t, rfl, .leave q2 nofun⟩
end
end Atop.Src
