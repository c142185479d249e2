import Verif.Lemmas.Rhythm
import Verif.Props.Notes

/-!
# C98: the speed strain of every map
-/

namespace GosuPP.Props
open Go Spec Exactly
attribute [local instance] exactLibm

section
variable {c r w : ℝ} {x : ℕ → Note} {objs : List (Obj (Option ℝ) (Option ℝ))} {d : Difficulty (Option ℝ)}

theorem islands_exist (n : ℕ) : ∃ l, Islands r x n l := by
  classical
  let s : Finset (ℕ × ℕ) := ((Finset.range n) ×ˢ (Finset.range n)).filter (fun i => Island r x n i)
  have hs : ∀ i, i ∈ s ↔ Island r x n i := by
    intro i
    simp only [s, Finset.mem_filter, Finset.mem_product, Finset.mem_range, and_iff_right_iff_imp]
    intro h
    exact ⟨lt_trans h.lt h.before, h.before⟩
  have hle : ∀ i j, Island r x n i → Island r x n j → i.1 ≤ j.1 → i ≠ j → i.2 ≤ j.1 := by
    intro i j hi hj h hne
    rcases h.lt_or_eq with h | h
    · by_contra hlt
      push Not at hlt
      exact hi.steady j.1 h hlt (.inl hj.starts)
    · exfalso
      apply hne
      refine Prod.ext h ?_
      rcases Nat.lt_trichotomy i.2 j.2 with e | e | e
      · exact absurd hi.ends (hj.steady i.2 (h ▸ hi.lt) e)
      · exact e
      · exact absurd hj.ends (hi.steady j.2 (h ▸ hj.lt) e)
  let l := s.toList.insertionSort (fun i j => i.1 ≤ j.1)
  have hp : l.Perm s.toList := List.perm_insertionSort _ _
  have hm : ∀ i, i ∈ l ↔ Island r x n i := fun i => by rw [hp.mem_iff, Finset.mem_toList, hs]
  have hn : l.Nodup := hp.nodup_iff.mpr s.nodup_toList
  have hsort : l.Pairwise (fun i j => i.1 ≤ j.1) := by
    haveI : Std.Total (fun i j : ℕ × ℕ => i.1 ≤ j.1) := ⟨fun i j => Nat.le_total _ _⟩
    haveI : IsTrans (ℕ × ℕ) (fun i j : ℕ × ℕ => i.1 ≤ j.1) := ⟨fun i j k => Nat.le_trans⟩
    exact List.pairwise_insertionSort _ _
  refine ⟨l, hm, ?_⟩
  refine List.Pairwise.imp_of_mem ?_ (hsort.and hn)
  intro a b ha hb hab
  exact hle a b ((hm a).mp ha) ((hm b).mp hb) hab.1 hab.2

/-- C98. At every note the islands that are remembered are determined by the times of the notes. -/
theorem C98_islands (n : ℕ) : ∃! l, Islands r x n l := by
  obtain ⟨l, hl⟩ := islands_exist (r := r) (x := x) n
  exact ⟨l, hl, fun l' hl' => islands_unique hl' hl⟩

theorem speed_notes (hs : Shows d x objs) (hr : d.speed = some r) (hr0 : 0 < r)
    (hc : d.circleRadius = some c) (hc0 : 0 < c) (hw : d.hit300 = some w) (hw0 : 0 < w) {l : ℕ → List (ℕ × ℕ)}
    (hl : ∀ n, Islands r x n (l n)) {fuel : ℕ}
    {ds : List (DiffObject (Option ℝ) (Option ℝ))} (hd : createDifficultyObjects objs d = .ok ds)
    {sk : Skill (Option ℝ) (Option ℝ)} (h : ds.foldlM (fun s o => s.process fuel o) (Skill.newSpeed d) = .ok sk) :
    AfterHits (Shown d c r x) 0.3 1375 (clock r x) (fun n => 1375 * speedHit r w x c n) (fun n => rhythmFactor r w x n (l n))
      (Skill.newSpeed d) (objs.length - 1) sk := by
  have hlen := createDifficultyObjects_length hd
  have hset : Set (0.3 : ℝ) 1375 (Skill.newSpeed d : Skill (Option ℝ) (Option ℝ)) := by
    refine ⟨?_, ?_, ?_, ?_⟩
    · show (lit 0.3 : Option ℝ) = _; rw [Exact.lit]; norm_num
    · show (lit 1375 : Option ℝ) = _; rw [Exact.lit]; norm_num
    · show (lit 400 : Option ℝ) = _; rw [Exact.lit]; norm_num
    · show 1 ≤ 32; norm_num
  have hz : (lit 0 : Option ℝ) = some 0 := by rw [Exact.lit]; norm_num
  have hP : ∀ (i : ℕ) o, ds[i]? = some o → Shown d c r x (0 + i + 1) o := fun i o ho => by
    rw [Nat.zero_add]; exact shown_objects hs hr hr0 hc hc0 hd ho
  have hpos : 0 ≤ 1375 * speedHit r w x c 1 * rhythmFactor r w x 1 (l 1) := by
    apply mul_nonneg (mul_nonneg (by norm_num) (speedHit_nonneg hc0 hr0 hw0 hs.toPlayable 1))
    unfold rhythmFactor
    split
    · exact le_rfl
    · positivity
  rw [← hlen, ← Nat.zero_add ds.length]
  refine run_hits (by norm_num) (clock_mono hr0 hs.toPlayable) hset (val := speedHit r w x c) (fun n => mul_comm _ _)
    (fun h => absurd rfl h) hpos ?_ (k := 0) hP (fun i o ho => (hP i o ho).deltaTime) (fun i o ho => (hP i o ho).start) ?_ h
  · intro k sk o hsk hp hl' ho
    have hdiff : ∀ s, SameSettings sk s → s.diff = d := fun s h1 => h1.diff.symm.trans hsk.diff.symm
    refine ⟨fun s h1 h2 => ?_, fun h s h1 h2 => ?_⟩
    · unfold Skill.strainValueOf
      rw [← h1.kind, ← hsk.kind]
      show Except.ok (Speed.strainValue s o) = _
      rw [speedHit_exact hr0 hw0 ho (by rw [h2]; exact hp) (by rw [h2, hl']; rfl) (by rw [hdiff s h1, hw]) (by rw [hdiff s h1, hr])]
    · obtain ⟨l', h3, h4⟩ := rhythm_exact (w := w) hr0 hw0 hs.toPlayable (sk := s) (by rw [h2, hl']; rfl) (by rw [h2]; exact hp)
        (by rw [hdiff s h1, hw]) (by rw [hdiff s h1, hr]) ho
      rw [h4, islands_unique h3 (hl (k + 1))]
  · exact ⟨⟨rfl, rfl, rfl, rfl, rfl, rfl, rfl, rfl, rfl, rfl⟩, (by intro i o ho; simp [Skill.newSpeed, Skill.new] at ho),
      by simp [Skill.newSpeed, Skill.new], fun _ => ⟨rfl, hz, hz⟩, fun h => absurd rfl h⟩

/-- C98 (exact arithmetic). The speed strain peaks of every map with at least two objects, by the times and positions of
its notes and the islands of its rhythm. -/
theorem C98_speed (hs : Shows d x objs) (hr : d.speed = some r) (hr0 : 0 < r) (hc : d.circleRadius = some c) (hc0 : 0 < c)
    (hw : d.hit300 = some w) (hw0 : 0 < w) {l : ℕ → List (ℕ × ℕ)} (hl : ∀ n, Islands r x n (l n))
    (hn : 2 ≤ objs.length) {fuel : ℕ} {p : StrainPeaks (Option ℝ)} (h : calculateStrainPeaks fuel objs d = .ok p) :
    PeakList 0.3 (clock r x) (fun n => 1375 * speedHit r w x c n) (fun n => rhythmFactor r w x n (l n)) (objs.length - 1) p.speed := by
  obtain ⟨ds, a, s, hd, -, -, h1, e⟩ := peaks_aim_fold h
  rw [e]
  exact ((speed_notes hs hr hr0 hc hc0 hw hw0 hl hd h1).curve (by omega)).list

end

/-- C98: a slider, two circles, a spinner and a circle, with a hit window of 40 ms. -/
example [GoSort] : ∃ fuel p, calculateStrainPeaks fuel exactMixed exactDiff = .ok p ∧
    ∃ l : ℕ → List (ℕ × ℕ), (∀ n, Islands 0.75 mixedNotes n (l n)) ∧
      PeakList 0.3 (clock 0.75 mixedNotes) (fun n => 1375 * speedHit 0.75 40 mixedNotes 32 n)
        (fun n => rhythmFactor 0.75 40 mixedNotes n (l n)) 4 p.speed := by
  obtain ⟨N, hN⟩ := C97_returns mixed_shows (r := 0.75) rfl (by norm_num) (by simp [exactMixed])
  obtain ⟨p, a, hp, -⟩ := hN N le_rfl
  choose l hl using islands_exist (r := 0.75) (x := mixedNotes)
  exact ⟨N, p, hp, l, hl, C98_speed mixed_shows rfl (by norm_num) rfl (by norm_num) rfl (by norm_num) hl (by simp [exactMixed]) hp⟩

/-- Gaps of 800 ms, then three of 400 ms, then of 800 ms. -/
private noncomputable def burst (n : ℕ) : Note where
  time := if n ≤ 2 then 800 * n else if n ≤ 5 then 800 + 400 * n else 800 * n - 1200
  spinner := false
  head := 0
  tail := 0
  slide := none

/-- The three gaps make an island. -/
example : Islands 1 burst 7 [(3, 6)] := by
  have g : ∀ k, k ≤ 6 → gap 1 burst k = if k = 0 then 25 else if k ≤ 2 then 800 else if k ≤ 5 then 400 else 800 := by
    intro k hk
    have : k = 0 ∨ k = 1 ∨ k = 2 ∨ k = 3 ∨ k = 4 ∨ k = 5 ∨ k = 6 := by omega
    rcases this with rfl | rfl | rfl | rfl | rfl | rfl | rfl <;> norm_num [gap, burst]
  have fast : ∀ k, 1 ≤ k → k ≤ 6 → (Faster 1 burst k ↔ k = 3) := by
    intro k h1 h2
    unfold Faster
    rw [g k h2, g (k - 1) (by omega)]
    have : k = 1 ∨ k = 2 ∨ k = 3 ∨ k = 4 ∨ k = 5 ∨ k = 6 := by omega
    rcases this with rfl | rfl | rfl | rfl | rfl | rfl <;> norm_num
  have slow : ∀ k, 2 ≤ k → k ≤ 6 → (Slower 1 burst k ↔ k = 6) := by
    intro k h1 h2
    unfold Slower
    rw [g k h2, g (k - 1) (by omega)]
    have : k = 2 ∨ k = 3 ∨ k = 4 ∨ k = 5 ∨ k = 6 := by omega
    rcases this with rfl | rfl | rfl | rfl | rfl <;> norm_num
  have isl : Island 1 burst 7 (3, 6) := by
    refine ⟨⟨le_rfl, by norm_num, by norm_num, ?_⟩, (fast 3 (by norm_num) (by norm_num)).mpr rfl, by norm_num, by norm_num,
      .inr ((slow 6 (by norm_num) le_rfl).mpr rfl), ?_⟩
    · norm_num [clock, burst]
    · intro k h1 h2
      simp only at h1 h2
      rw [Switch, fast k (by omega) (by omega), slow k (by omega) (by omega)]
      omega
  refine ⟨fun i => ?_, by simp⟩
  rw [List.mem_singleton]
  constructor
  · rintro rfl; exact isl
  · intro hi
    have h3 := hi.remembered.third
    have hl := hi.lt
    have hb := hi.before
    have e1 := (fast i.1 (by omega) (by omega)).mp hi.starts
    refine Prod.ext e1 ?_
    rcases hi.ends with h | h
    · have := (fast i.2 (by omega) (by omega)).mp h
      omega
    · exact (slow i.2 (by omega) (by omega)).mp h

end GosuPP.Props
