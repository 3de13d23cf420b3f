import Verif.Props.Failing
/-!
# C80 is about every file: a growing file and an unchanging file are such files
-/

namespace Atop
open Spec Prog

theorem live_reads {α} (p : Prog α) : ∀ (l : Live), l.reads ≤ (p.live l).2.reads := by
  induction p with
  | ret a => exact fun l => Nat.le_refl _
  | raise e => exact fun l => Nat.le_refl _
  | read n k ih =>
    intro l
    rw [live.eq_def]
    dsimp only
    rcases Stream.read n (l.snapshot l.reads) with ⟨e | b, s'⟩
    · exact Nat.le_succ _
    · exact Nat.le_trans (Nat.le_succ _) (ih b { l with pos := s'.pos, reads := l.reads + 1 })

theorem live_loop_reads (Z : Zlib) (rot : Bool) (h : Header) (v : Nat × Nat) : ∀ (n : Nat) (l : Live),
    l.reads ≤ (Live.runLoop Z rot h v n l).2.2.reads
  | 0, l => Nat.le_refl _
  | n + 1, l => by
    have G := live_reads (readSampleP Z h v) l
    rw [Live.runLoop]
    rcases hx : (readSampleP Z h v).live l with ⟨x | _ | x, l'⟩ <;> rw [hx] at G
    · exact G
    · exact G
    · exact Nat.le_trans G (live_loop_reads Z rot h v n l')

/-- The answers between two numbers of reads. -/
def AnswersAs (g : Nat → Bytes) (a b : Nat) (f : Fed) : Prop := f.reads = a ∧ ∀ t, a ≤ t → t < b → f.gives t = g t

theorem fed_of_live {α} (p : Prog α) : ∀ (l : Live), ∃ g, ∀ f, AnswersAs g l.reads (p.live l).2.reads f →
    (p.fed f).1 = (p.live l).1 ∧ (p.fed f).2.reads = (p.live l).2.reads := by
  induction p with
  | ret a => exact fun l => ⟨fun _ => [], fun f h => ⟨rfl, h.1⟩⟩
  | raise e => exact fun l => ⟨fun _ => [], fun f h => ⟨rfl, h.1⟩⟩
  | read n k ih =>
    intro l
    have hr : Stream.read n (l.snapshot l.reads) = (.ok ((l.snapshot l.reads).rest.take n), _) := Stream.read_none (s := l.snapshot l.reads) rfl n
    rw [live.eq_def]
    dsimp only
    rw [hr]
    dsimp only
    generalize hs : (Stream.adv _ _).pos = pos
    obtain ⟨g, hg⟩ := ih ((l.snapshot l.reads).rest.take n) { l with pos := pos, reads := l.reads + 1 }
    have hm := live_reads (k ((l.snapshot l.reads).rest.take n)) { l with pos := pos, reads := l.reads + 1 }
    dsimp only at hm hg
    refine ⟨fun t => if t = l.reads then (l.snapshot l.reads).rest else g t, fun f hf => ?_⟩
    have h0 := hf.2 l.reads (Nat.le_refl _) hm
    replace h0 := h0.trans (if_pos rfl)
    rw [fed_read, hf.1, h0]
    refine hg (f.after n) ⟨congrArg (· + 1) hf.1, fun t h1 h2 => ?_⟩
    have := hf.2 t (by omega) h2
    exact this.trans (if_neg (by omega))

theorem fed_of_live_loop (Z : Zlib) (rot : Bool) (h : Header) (v : Nat × Nat) : ∀ (n : Nat) (l : Live), ∃ g, ∀ f,
    AnswersAs g l.reads (Live.runLoop Z rot h v n l).2.2.reads f →
    (Fed.runLoop Z rot h v n f).1 = (Live.runLoop Z rot h v n l).1 ∧ (Fed.runLoop Z rot h v n f).2.1 = (Live.runLoop Z rot h v n l).2.1
  | 0, l => ⟨fun _ => [], fun f h => ⟨rfl, rfl⟩⟩
  | n + 1, l => by
    obtain ⟨g, hg⟩ := fed_of_live (readSampleP Z h v) l
    rw [Live.runLoop]
    rcases hx : (readSampleP Z h v).live l with ⟨x | _ | x, l'⟩ <;> rw [hx] at hg <;> dsimp only at hg ⊢
    · refine ⟨g, fun f hf => ?_⟩
      have h1 := (hg f hf).1
      rw [Fed.runLoop]
      rcases hy : (readSampleP Z h v).fed f with ⟨y, f'⟩
      rw [hy] at h1
      dsimp only at h1
      rw [h1]
      exact ⟨rfl, rfl⟩
    · refine ⟨g, fun f hf => ?_⟩
      have h1 := (hg f hf).1
      rw [Fed.runLoop]
      rcases hy : (readSampleP Z h v).fed f with ⟨y, f'⟩
      rw [hy] at h1
      dsimp only at h1
      rw [h1]
      exact ⟨rfl, rfl⟩
    · obtain ⟨g', hg'⟩ := fed_of_live_loop Z rot h v n l'
      have m1 := live_reads (readSampleP Z h v) l
      rw [hx] at m1
      dsimp only at m1
      have m2 := live_loop_reads Z rot h v n l'
      refine ⟨fun t => if t < l'.reads then g t else g' t, fun f hf => ?_⟩
      obtain ⟨h1, h2⟩ := hg f ⟨hf.1, fun t t1 t2 => by
        have := hf.2 t t1 (by omega)
        exact this.trans (if_pos t2)⟩
      have h3 := (fed_gives (readSampleP Z h v) f).1
      rw [Fed.runLoop]
      rcases hy : (readSampleP Z h v).fed f with ⟨y, f'⟩
      rw [hy] at h1 h2 h3
      dsimp only at h1 h2 h3
      rw [h1]
      obtain ⟨i1, i2⟩ := hg' f' ⟨h2, fun t t1 t2 => by
        have := hf.2 t (by omega) t2
        rw [h3]
        exact this.trans (if_neg (by omega))⟩
      dsimp only
      rw [i1, i2]
      exact ⟨rfl, rfl⟩

/-- **C80** Every growing file of C63 - and with it every unchanging one - is a file C80 is about: there are answers of the reads
with which iterating gives the same samples and ends in the same way. -/
theorem C80_covers_growing (Z : Zlib) (header : Option Header) (rot : Bool) (max : Int) (l : Live) (hl : l.reads = 0) :
    ∃ gives, (Fed.generateStatistics Z header rot max { gives }).1 = (Live.generateStatistics Z header rot max l).1 ∧
      (Fed.generateStatistics Z header rot max { gives }).2.1 = (Live.generateStatistics Z header rot max l).2.1 := by
  have main : ∀ (h : Header) (l : Live), ∃ g, ∀ f, AnswersAs g l.reads (Live.generateStatistics Z (some h) rot max l).2.2.reads f →
      (Fed.generateStatistics Z (some h) rot max f).1 = (Live.generateStatistics Z (some h) rot max l).1 ∧
      (Fed.generateStatistics Z (some h) rot max f).2.1 = (Live.generateStatistics Z (some h) rot max l).2.1 := by
    intro h l
    unfold Fed.generateStatistics Live.generateStatistics
    dsimp only
    cases parsedVersion h with
    | error e => exact ⟨fun _ => [], fun f _ => ⟨rfl, rfl⟩⟩
    | ok v => exact fed_of_live_loop Z rot h.latched v max.toNat l
  have mono : ∀ (h : Header) (l : Live), l.reads ≤ (Live.generateStatistics Z (some h) rot max l).2.2.reads := by
    intro h l
    unfold Live.generateStatistics
    dsimp only
    cases parsedVersion h with
    | error e => exact Nat.le_refl _
    | ok v => exact live_loop_reads Z rot h.latched v max.toNat l
  cases header with
  | some h =>
    obtain ⟨g, hg⟩ := main h l
    exact ⟨g, hg { gives := g } ⟨hl.symm, fun _ _ _ => rfl⟩⟩
  | none =>
    obtain ⟨g, hg⟩ := fed_of_live (getHeaderP true) l
    have hrun : Live.generateStatistics Z none rot max l = match (getHeaderP true).live l with
        | (.error e, l') => ([], .raised e, l')
        | (.ok h, l') => Live.generateStatistics Z (some h) rot max l' := rfl
    have m1 := live_reads (getHeaderP true) l
    rw [hrun]
    rcases hx : (getHeaderP true).live l with ⟨x | h, l'⟩ <;> rw [hx] at hg m1 <;> dsimp only at hg m1 ⊢
    · refine ⟨g, ?_⟩
      have h1 := (hg { gives := g } ⟨hl.symm, fun _ _ _ => rfl⟩).1
      rw [fed_none]
      rcases hy : (getHeaderP true).fed { gives := g } with ⟨y, f'⟩
      rw [hy] at h1
      dsimp only at h1
      rw [h1]
      exact ⟨rfl, rfl⟩
    · obtain ⟨g', hg'⟩ := main h l'
      have m2 := mono h l'
      refine ⟨fun t => if t < l'.reads then g t else g' t, ?_⟩
      obtain ⟨h1, h2⟩ := hg { gives := fun t => if t < l'.reads then g t else g' t } ⟨hl.symm, fun t t1 t2 => if_pos t2⟩
      have h3 := (fed_gives (getHeaderP true) { gives := fun t => if t < l'.reads then g t else g' t }).1
      rw [fed_none]
      rcases hy : (getHeaderP true).fed { gives := fun t => if t < l'.reads then g t else g' t } with ⟨y, f'⟩
      rw [hy] at h1 h2 h3
      dsimp only at h1 h2 h3
      rw [h1]
      exact hg' f' ⟨h2, fun t t1 t2 => by rw [h3]; exact if_neg (by omega)⟩

/-- **C80** Every unchanging plain file, from any position. -/
theorem C80_covers_still (Z : Zlib) (header : Option Header) (rot : Bool) (max : Int) (data : Bytes) (pos : Nat) :
    ∃ gives, (Fed.generateStatistics Z header rot max { gives }).1 = (generateStatistics Z header rot max ⟨data, pos, none⟩).1 ∧
      (Fed.generateStatistics Z header rot max { gives }).2.1 = (generateStatistics Z header rot max ⟨data, pos, none⟩).2.1 := by
  obtain ⟨g, h1, h2⟩ := C80_covers_growing Z header rot max ⟨data, fun _ => data.length, pos, 0⟩ rfl
  obtain ⟨k1, k2, -⟩ := C63_still Z header rot max data pos data.length
  rw [List.take_length] at k1 k2
  exact ⟨g, h1.trans k1, h2.trans k2⟩

/-- **C80** `C80_covers_growing`: the log of any version, of which more can be seen with every read. -/
example (r : Row) := C80_covers_growing toyZ none true 86400 ⟨(toyFile r).data, fun t => 480 + 100 * t, 0, 0⟩ rfl

/-- **C80** `C80_covers_still`: with what `C01` says about it, there are answers that give the three samples of the toy log. -/
example (r : Row) (hr : r ∈ table) : ∃ gives, (Fed.generateStatistics toyZ none true 86400 { gives }).1.length = 3 := by
  obtain ⟨g, h1, -⟩ := C80_covers_still toyZ none true 86400 (toyFile r).data 0
  refine ⟨g, ?_⟩
  obtain ⟨h, c, -, -, -, e, -, -, e2⟩ := toy_open r hr
  have e3 := e2 true 86400 (by decide)
  have e4 : generateStatistics toyZ none true 86400 (toyFile r) = generateStatistics toyZ (some h) true 86400 (toyOpen r) := by
    rw [generate_none, e]
  rw [h1]
  show (generateStatistics toyZ none true 86400 (toyFile r)).1.length = 3
  rw [e4, e3]
  rfl

end Atop
