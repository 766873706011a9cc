import Verif.GlideLemmas
import Verif.Props.MathProps
import Mathlib.Tactic.Linarith
import Mathlib.Tactic.FieldSimp
import Mathlib.Tactic.Ring
import Mathlib.Algebra.Order.BigOperators.Group.List

/-!
# Properties of the glide computer of the examples
-/

namespace Verif

/-! ### Specification -/

/-- The height lost in a kilometre at the speed `v` (kilometres per hour) and the rate of climb `c` (metres per second). -/
def sinkPerKm (v c : ℚ) : ℚ := -c * (3600 / v)

/-- The distance `d` is on the leg `i`. -/
def OnLeg (ls : List ℚ) (d : ℚ) (i : Nat) : Prop := i < ls.length ∧ d ≤ (ls.take (i + 1)).sum ∧ (i = 0 ∨ (ls.take i).sum < d)

/-- The time of a glide from `p` to `q`: the length of the straight line at the speed `v`; the square root is that of the library. -/
def GlideTime (L : Libm) (v : ℚ) (p q : QPt) : Prop :=
  ∃ s, L.sqrt .f64 (((q.dist - p.dist) * 1000) ^ 2 + (p.alt - q.alt) ^ 2) = .ok s ∧ q.ts - p.ts = s / (v * 1000 / 3600)

/-- The functions of `<cmath>`: squares are exact, numbers that are not negative have roots. -/
structure LibmOk (L : Libm) : Prop where
  pow : ∀ x, L.pow .f64 x 2 = .ok (x ^ 2)
  sqrt : ∀ x, 0 ≤ x → ∃ s, L.sqrt .f64 x = .ok s

/-- The position before the round `k`: the first one, or the last one of the round before. -/
def before (p : QPt) (c : Nat → QPt) : Nat → QPt
  | 0 => p
  | k + 1 => c k

/-! ### Helper lemmas -/

theorem sink_eq {v c : ℚ} : 1 / (v / -c) * 3600 = sinkPerKm v c := by
  unfold sinkPerKm; rw [one_div_div]; ring

theorem sink_pos {v c : ℚ} (hv : 0 < v) (hc : c < 0) : 0 < sinkPerKm v c := by
  unfold sinkPerKm; have : 0 < 3600 / v := by positivity
  nlinarith

theorem sums_le {ls : List ℚ} (h : ∀ l ∈ ls, 0 < l) (a : ℚ) : ∀ x ∈ sumsFrom a ls, x ≤ a + ls.sum := by
  induction ls generalizing a with
  | nil => simp [sumsFrom]
  | cons l ls ih =>
    intro x hx
    have h0 : 0 ≤ ls.sum := List.sum_nonneg fun y hy => (h y (List.mem_cons_of_mem _ hy)).le
    rcases List.mem_cons.mp hx with rfl | hx
    · rw [List.sum_cons]; linarith
    · have := ih (fun y hy => h y (List.mem_cons_of_mem _ hy)) (a + l) x hx
      rw [List.sum_cons]; linarith

theorem index_on {ls : List ℚ} (hne : ls ≠ []) {d : ℚ} (hd : d ≤ ls.sum) : OnLeg ls d ((sumsFrom 0 ls).findIdx fun x => decide (d ≤ x)) := by
  obtain ⟨n, hn⟩ : ∃ n, ls.length = n + 1 := ⟨ls.length - 1, by have := List.length_pos_of_ne_nil hne; omega⟩
  have hlast := sumsFrom_get 0 ls n (by omega)
  rw [← hn, List.take_length, zero_add] at hlast
  have hlt : (sumsFrom 0 ls).findIdx (fun x => decide (d ≤ x)) < (sumsFrom 0 ls).length :=
    List.findIdx_lt_length_of_exists ⟨_, List.mem_of_getElem? hlast, by simpa using hd⟩
  have hlt' := hlt
  rw [sumsFrom_length] at hlt'
  refine ⟨hlt', ?_, ?_⟩
  · have h1 := List.findIdx_getElem (w := hlt)
    have h2 := sumsFrom_get 0 ls _ hlt'
    rw [List.getElem?_eq_getElem hlt, Option.some.injEq] at h2
    rw [h2, zero_add] at h1
    simpa using h1
  · rcases Nat.eq_zero_or_pos ((sumsFrom 0 ls).findIdx fun x => decide (d ≤ x)) with h | h
    · exact Or.inl h
    · refine Or.inr ?_
      have h1 : (sumsFrom 0 ls).findIdx (fun x => decide (d ≤ x)) - 1 < (sumsFrom 0 ls).findIdx (fun x => decide (d ≤ x)) := by omega
      have h3 := List.not_of_lt_findIdx h1
      have h2 := sumsFrom_get 0 ls ((sumsFrom 0 ls).findIdx (fun x => decide (d ≤ x)) - 1) (by omega)
      rw [List.getElem?_eq_getElem (by omega), Option.some.injEq, Nat.sub_add_cancel h, zero_add] at h2
      rw [h2] at h3
      simpa using h3

theorem index_past {ls : List ℚ} (hpos : ∀ l ∈ ls, 0 < l) {d : ℚ} (hd : ls.sum < d) : ((sumsFrom 0 ls).findIdx fun x => decide (d ≤ x)) = ls.length := by
  rw [← sumsFrom_length 0 ls]
  refine List.findIdx_eq_length_of_false fun x hx => ?_
  have := sums_le hpos 0 x hx
  simp only [decide_eq_false_iff_not, not_le]; linarith

/-- A task on flat ground. -/
structure FlatTask (t : Task) (A : ℚ) (ls : List ℚ) : Prop where
  ne : ls ≠ []
  pos : ∀ l ∈ ls, 0 < l
  of : TaskOf t (List.replicate (ls.length + 1) A) ls

theorem FlatTask.finish {t : Task} {A : ℚ} {ls : List ℚ} (h : FlatTask t A ls) : t.finish = .ok (alt A) := by
  unfold Task.finish
  rw [h.of.start, List.map_replicate, List.getLast?_replicate]; simp

section
variable {L : Libm} {t : Task} {A v c m cb th : ℚ} {ls : List ℚ}

theorem flat_terrain (hT : FlatTask t A ls) (p : QPt) (hp : p.leg < ls.length) : terrainLevel (glideProg L) t p.fp = .ok (alt A) := by
  have h1 := hT.of.legs p.leg A A ls[p.leg] (by rw [List.getElem?_replicate]; simp; omega) (by rw [List.getElem?_replicate]; simp; omega) (List.getElem?_eq_getElem hp)
  have h2 := q_terrain L (p := p) h1 (hT.of.offset p.leg hp.le) (hT.pos _ (List.getElem_mem hp)).ne'
  rw [h2]; simp

theorem flat_glide (hL : LibmOk L) (hT : FlatTask t A ls) (hv : 0 < v) (hc : c < 0) (p : QPt) (hp : p.leg < ls.length) (hd : p.dist < ls.sum) :
    ∃ q : QPt, glide (glideProg L) p.fp (pol v c) t (hgt m) = .ok q.fp ∧ q.alt = A + m ∧ q.dist = p.dist + (p.alt - A - m) / sinkPerKm v c ∧
      GlideTime L v p q ∧ q.leg = (sumsFrom 0 ls).findIdx fun x => decide (q.dist ≤ x) := by
  have hk := sink_pos hv hc
  obtain ⟨s, hs⟩ := hL.sqrt (((p.alt - A - m) / sinkPerKm v c) ^ 2 * 1000000 + (p.alt - (A + m)) ^ 2) (by positivity)
  have hm : (A - A) / (ls.sum - p.dist) - 1 / (v / -c) * 3600 ≠ 0 := by
    rw [sink_eq, sub_self, zero_div, zero_sub]; exact neg_ne_zero.mpr hk.ne'
  have hx : (p.alt - A - m) / sinkPerKm v c = (A + m - p.alt) / ((A - A) / (ls.sum - p.dist) - 1 / (v / -c) * 3600) := by
    rw [sink_eq, sub_self, zero_div, zero_sub, div_neg, ← neg_div]; congr 1; ring
  refine ⟨_, q_glide L hL.pow (flat_terrain hT p hp) hv.ne' hc.ne hT.finish hT.of.total (sub_pos.mpr hd).ne' hm hx hs
    (by rw [hT.of.totals]; exact q_legIndex L _ _), rfl, rfl, ⟨s, ?_, ?_⟩, rfl⟩
  · rw [← hs]; congr 1; ring
  · show p.ts + _ - p.ts = _
    field_simp; ring

/-- One round of the loop on flat ground. -/
theorem flat_round (hL : LibmOk L) (hT : FlatTask t A ls) (hv : 0 < v) (hc : c < 0) (hr : th + c ≠ 0) (p : QPt) (hp : p.leg < ls.length)
    {T : ℚ} (hT1 : T = sinkPerKm v c * (ls.sum - p.dist) - (p.alt - A)) (hd : p.dist < ls.sum) (hT0 : 0 ≤ T + m) :
    ∃ q r : QPt, glide (glideProg L) p.fp (pol v c) t (hgt m) = .ok q.fp ∧
      circle (glideProg L) q.fp (pol v c) ⟨hgt cb, roc th⟩ t (hgt T) = .ok (r.fp, hgt (T - min T (cb - m))) ∧
      q.alt = A + m ∧ q.dist = p.dist + (p.alt - A - m) / sinkPerKm v c ∧ OnLeg ls q.dist q.leg ∧ GlideTime L v p q ∧
      r.alt = q.alt + min T (cb - m) ∧ r.dist = q.dist ∧ r.leg = q.leg ∧ r.ts - q.ts = (r.alt - q.alt) / (th + c) ∧
      T - min T (cb - m) = sinkPerKm v c * (ls.sum - r.dist) - (r.alt - A) := by
  obtain ⟨q, h1, h2, h3, h4, h5⟩ := flat_glide (m := m) hL hT hv hc p hp hd
  have hk := sink_pos hv hc
  have hq : sinkPerKm v c * (ls.sum - q.dist) = T + m := by
    rw [h3, hT1]; field_simp; ring
  have hle : q.dist ≤ ls.sum := by
    by_contra hcon
    have : sinkPerKm v c * (ls.sum - q.dist) < 0 := mul_neg_of_pos_of_neg hk (by linarith [not_le.mp hcon])
    linarith
  have hon := index_on hT.ne hle
  rw [← h5] at hon
  have hcirc := q_circle L (v := v) (c := c) (cb := cb) (th := th) (T := T) (flat_terrain (L := L) hT q hon.1) hr
  have e : cb - (q.alt - A) = cb - m := by rw [h2]; ring
  rw [e] at hcirc
  refine ⟨q, _, h1, hcirc, h2, h3, hon, h4, rfl, rfl, rfl, ?_, ?_⟩
  · show q.ts + _ - q.ts = _
    ring
  · show _ = sinkPerKm v c * (ls.sum - q.dist) - (q.alt + _ - A)
    rw [hq, h2]; ring

/-- The rounds `0, 1, …` of a flight on flat ground: from `p`, with the height `T` to gain. -/
structure Rounds (L : Libm) (A v c m cb th : ℚ) (ls : List ℚ) (p : QPt) (T : ℚ) (N : Nat) (g r : Nat → QPt) : Prop where
  low : ∀ k < N, (g k).alt = A + m
  way : ∀ k < N, (g k).dist = p.dist + (p.alt - A - m + k * (cb - m)) / sinkPerKm v c
  leg : ∀ k < N, OnLeg ls (g k).dist (g k).leg
  time : ∀ k < N, GlideTime L v (before p r k) (g k)
  stay : ∀ k < N, (r k).dist = (g k).dist ∧ (r k).leg = (g k).leg
  top : ∀ k < N, (r k).alt = A + min cb (m + (T - k * (cb - m)))
  climb : ∀ k < N, (r k).ts - (g k).ts = ((r k).alt - (g k).alt) / (th + c)

/-- The rows printed in the loop. -/
def rowsOf (N : Nat) (g r : Nat → QPt) : List Row := (List.range N).flatMap fun k => [(.glide, (g k).fp), (.circle, (r k).fp)]

theorem rowsOf_succ (N : Nat) (g r : Nat → QPt) :
    rowsOf (N + 1) g r = (.glide, (g 0).fp) :: (.circle, (r 0).fp) :: rowsOf N (fun k => g (k + 1)) (fun k => r (k + 1)) := by
  simp [rowsOf, List.range_succ_eq_map, List.flatMap_map]

theorem flat_loop (hL : LibmOk L) (hT : FlatTask t A ls) (hv : 0 < v) (hc : c < 0) (hm : 0 ≤ m) (hcb : m < cb) (hr : th + c ≠ 0) (N : Nat) (p : QPt)
    (hp : p.leg < ls.length) (T : ℚ) (hT1 : T = sinkPerKm v c * (ls.sum - p.dist) - (p.alt - A)) (ha : A + m ≤ p.alt ∨ p.dist < ls.sum) (hlo : N * (cb - m) < T)
    (hhi : T ≤ (N + 1) * (cb - m)) :
    ∃ g r : Nat → QPt, Rounds L A v c m cb th ls p T (N + 1) g r ∧
      ∀ n, N < n → estimateLoop (glideProg L) (pol v c) ⟨hgt cb, roc th⟩ t (hgt m) n p.fp (hgt T) = .ok (some (rowsOf (N + 1) g r, (r N).fp)) := by
  have hk := sink_pos hv hc
  induction N generalizing p T with
  | zero =>
    have hT0 : 0 < T := by simpa using hlo
    have hd : p.dist < ls.sum := by
      rcases ha with ha | ha
      · by_contra hcon
        have : sinkPerKm v c * (ls.sum - p.dist) ≤ 0 := mul_nonpos_of_nonneg_of_nonpos hk.le (by linarith [not_lt.mp hcon])
        linarith
      · exact ha
    obtain ⟨q, r, h1, h2, h3, h4, h5, h6, h7, h8, h9, h10, h11⟩ := flat_round (m := m) (cb := cb) hL hT hv hc hr p hp hT1 hd (by linarith)
    have hmin : min T (cb - m) = T := min_eq_left (by simpa using hhi)
    rw [hmin] at h2 h7 h11
    refine ⟨fun _ => q, fun _ => r, ⟨?_, ?_, ?_, ?_, ?_, ?_, ?_⟩, fun n hn => ?_⟩
    · intro k _; exact h3
    · intro k hk'; obtain rfl : k = 0 := by omega
      rw [h4]; simp
    · intro k _; exact h5
    · intro k hk'; obtain rfl : k = 0 := by omega
      exact h6
    · intro k _; exact ⟨h8, h9⟩
    · intro k hk'; obtain rfl : k = 0 := by omega
      rw [h7, h3]
      have : min cb (m + (T - ((0 : ℕ) : ℚ) * (cb - m))) = m + T := by
        rw [min_eq_right]
        · simp
        · have : T ≤ cb - m := by simpa using hhi
          push_cast; linarith
      rw [this]; ring
    · intro k _; exact h10
    · obtain ⟨n, rfl⟩ : ∃ n', n = n' + 1 := ⟨n - 1, by omega⟩
      have : ¬ (numCompare (.f (T - T)) (.f 0) = .gt) := by rw [numCompare_gt]; simp
      simp only [estimateLoop, h1, ok_bind, h2, prog_env, q_more, if_neg this]
      rfl
  | succ N ih =>
    have hT0 : 0 < T := lt_of_le_of_lt (mul_nonneg (by positivity) (by linarith)) hlo
    have hd : p.dist < ls.sum := by
      rcases ha with ha | ha
      · by_contra hcon
        have : sinkPerKm v c * (ls.sum - p.dist) ≤ 0 := mul_nonpos_of_nonneg_of_nonpos hk.le (by linarith [not_lt.mp hcon])
        linarith
      · exact ha
    push_cast at hlo hhi
    have hTc : cb - m < T := by
      have : 0 ≤ (N : ℚ) * (cb - m) := mul_nonneg (by positivity) (by linarith)
      nlinarith
    obtain ⟨q, r, h1, h2, h3, h4, h5, h6, h7, h8, h9, h10, h11⟩ := flat_round (m := m) (cb := cb) hL hT hv hc hr p hp hT1 hd (by linarith)
    have hmin : min T (cb - m) = cb - m := min_eq_right hTc.le
    rw [hmin] at h2 h7 h11
    have hralt : r.alt = A + cb := by rw [h7, h3]; ring
    obtain ⟨g', r', hR, hE⟩ := ih r (by rw [h9]; exact h5.1) (T - (cb - m)) h11 (Or.inl (by rw [hralt]; linarith)) (by linarith) (by linarith)
    refine ⟨fun k => Nat.casesOn k q g', fun k => Nat.casesOn k r r', ⟨?_, ?_, ?_, ?_, ?_, ?_, ?_⟩, fun n hn => ?_⟩
    · rintro (_ | k) hk'
      · exact h3
      · exact hR.low k (by omega)
    · rintro (_ | k) hk'
      · simp [h4]
      · have := hR.way k (by omega)
        simp only [this, h8, h4, hralt]
        push_cast; field_simp; ring
    · rintro (_ | k) hk'
      · exact h5
      · exact hR.leg k (by omega)
    · rintro (_ | k) hk'
      · exact h6
      · have := hR.time k (by omega)
        cases k with
        | zero => exact this
        | succ k => exact this
    · rintro (_ | k) hk'
      · exact ⟨h8, h9⟩
      · exact hR.stay k (by omega)
    · rintro (_ | k) hk'
      · show r.alt = _
        rw [hralt, min_eq_left]
        push_cast; linarith
      · have := hR.top k (by omega)
        show (r' k).alt = _
        rw [this]; push_cast; congr 2; ring
    · rintro (_ | k) hk'
      · exact h10
      · exact hR.climb k (by omega)
    · obtain ⟨n, rfl⟩ : ∃ n', n = n' + 1 := ⟨n - 1, by omega⟩
      have hgt : numCompare (.f (T - (cb - m))) (.f 0) = .gt := by rw [numCompare_gt]; linarith
      simp only [estimateLoop, h1, ok_bind, h2, prog_env, q_more, if_pos hgt, hE n (by omega), Option.map_some]
      rw [rowsOf_succ (N + 1)]; rfl

end

/-! ### Properties -/

theorem C80_flat_partial (L : Libm) (hL : LibmOk L) (A : ℚ) (ls : List ℚ) (hne : ls ≠ []) (hpos : ∀ l ∈ ls, 0 < l)
    (v c m cb th h w t0 : ℚ) (hv : 0 < v) (hc : c < 0) (hm : 0 ≤ m) (hcb : m < cb) (hr : 0 < th + c) (hw : w ≠ 0)
    (hneed : h < sinkPerKm v c * ls.sum) :
    ∃ t, makeTask (glideProg L) (List.replicate (ls.length + 1) (alt A)) (ls.map dst) = .ok t ∧
    ∃ (N : Nat) (g r : Nat → QPt) (p f : QPt),
      N * (cb - m) < sinkPerKm v c * ls.sum - h ∧ sinkPerKm v c * ls.sum - h ≤ (N + 1) * (cb - m) ∧
      p.ts - t0 = h / w ∧ p.alt = A + h ∧ p.dist = 0 ∧
      Rounds L A v c m cb th ls p (sinkPerKm v c * ls.sum - h) (N + 1) g r ∧
      GlideTime L v (r N) f ∧ f.alt = A ∧ f.dist = ls.sum ∧ f.leg = ls.length - 1 ∧
      (r N).alt - A = sinkPerKm v c * (ls.sum - (r N).dist) ∧
      ∀ n, N < n → estimate (glideProg L) n (tim t0) (pol v c) ⟨hgt cb, roc th⟩ t (hgt m) ⟨hgt h, roc w⟩
        = .ok (some ((.tow, p.fp) :: rowsOf (N + 1) g r ++ [(.finalGlide, f.fp)])) := by
  obtain ⟨t, ht, hof⟩ := makeTask_spec L (List.replicate (ls.length + 1) A) ls hne (by simp)
  rw [List.map_replicate] at ht
  have hT : FlatTask t A ls := ⟨hne, hpos, hof⟩
  refine ⟨t, ht, ?_⟩
  have hk := sink_pos hv hc
  have hS : 0 < ls.sum := by
    obtain ⟨l, ls', rfl⟩ := List.exists_cons_of_ne_nil hne
    rw [List.sum_cons]
    have h1 := hpos l (by simp)
    have h2 : 0 ≤ ls'.sum := List.sum_nonneg fun y hy => (hpos y (List.mem_cons_of_mem _ hy)).le
    linarith
  set T := sinkPerKm v c * ls.sum - h with hTdef
  have hT0 : 0 < T := by linarith
  have hc0 : 0 < cb - m := by linarith
  obtain ⟨N, hlo, hhi⟩ : ∃ N : Nat, N * (cb - m) < T ∧ T ≤ (N + 1) * (cb - m) := by
    refine ⟨⌈T / (cb - m)⌉₊ - 1, ?_, ?_⟩
    · have h1 : 0 < ⌈T / (cb - m)⌉₊ := Nat.ceil_pos.mpr (div_pos hT0 hc0)
      have h2 := Nat.lt_ceil.mp (Nat.sub_lt h1 one_pos)
      rwa [lt_div_iff₀ hc0] at h2
    · have h1 : 0 < ⌈T / (cb - m)⌉₊ := Nat.ceil_pos.mpr (div_pos hT0 hc0)
      have h2 := Nat.le_ceil (T / (cb - m))
      rw [div_le_iff₀ hc0] at h2
      have h3 : ((⌈T / (cb - m)⌉₊ - 1 : ℕ) : ℚ) + 1 = ⌈T / (cb - m)⌉₊ := by
        rw [Nat.cast_sub h1]; simp
      rw [h3]; exact h2
  let p0 : QPt := ⟨t0, A, 0, 0⟩
  let p : QPt := ⟨p0.ts + h / w, p0.alt + h, p0.leg, p0.dist⟩
  have hpleg : p.leg < ls.length := List.length_pos_of_ne_nil hne
  have hT1 : T = sinkPerKm v c * (ls.sum - p.dist) - (p.alt - A) := by
    show T = sinkPerKm v c * (ls.sum - 0) - (A + h - A); rw [hTdef]; ring
  obtain ⟨g, r, hR, hE⟩ := flat_loop (th := th) hL hT hv hc hm hcb hr.ne' N p hpleg T hT1 (Or.inr hS) hlo hhi
  obtain ⟨s, hs⟩ := hL.sqrt ((ls.sum - (r N).dist) ^ 2 * 1000000 + ((r N).alt - A) ^ 2) (by positivity)
  let f : QPt := ⟨(r N).ts + s * (1 / 1000) / v * 3600, A, t.legs.length - 1, (r N).dist + (ls.sum - (r N).dist)⟩
  have hfin : finalGlide (glideProg L) (r N).fp (pol v c) t = .ok f.fp := q_final L hL.pow (c := c) (p := r N) hv.ne' hT.finish hof.total hs
  have hgain := q_toGain L (p := p) hv.ne' hc.ne hT.finish hof.total
  have eT : A + ls.sum / (v / -c) * 3600 - p.alt = T := by
    have : ls.sum / (v / -c) * 3600 = ls.sum * (1 / (v / -c) * 3600) := by ring
    rw [this, sink_eq]
    show _ - (A + h) = _
    rw [hTdef]; ring
  rw [eT] at hgain
  refine ⟨N, g, r, p, f, hlo, hhi, ?_, rfl, rfl, hR, ⟨s, ?_, ?_⟩, rfl, ?_, ?_, ?_, fun n hn => ?_⟩
  · show t0 + h / w - t0 = _; ring
  · show L.sqrt .f64 ((((r N).dist + (ls.sum - (r N).dist) - (r N).dist) * 1000) ^ 2 + ((r N).alt - A) ^ 2) = _
    rw [← hs]; congr 1; ring
  · show (r N).ts + s * (1 / 1000) / v * 3600 - (r N).ts = _
    field_simp; ring
  · show (r N).dist + (ls.sum - (r N).dist) = _; ring
  · show t.legs.length - 1 = _; rw [hof.count]
  · rw [hR.top N (by omega), (hR.stay N (by omega)).1, hR.way N (by omega), min_eq_right (by linarith)]
    show _ = _ * (_ - (0 + (A + h - A - m + _) / _))
    field_simp; rw [hTdef]; ring
  · have htk : takeoff (tim t0) t = .ok p0.fp := by
      unfold takeoff; rw [hof.start, List.replicate_succ]; rfl
    have htow : tow (glideProg L) p0.fp ⟨hgt h, roc w⟩ = .ok p.fp := q_tow L p0 hw
    simp only [estimate, htk, htow, ok_bind, hgain, hE n hn, hfin]

/-- Altitudes stay between the height for safety and the cloud base, distances on the way to the finish, which is in reach of a glide only at the end. -/
theorem C80_safe_partial {L : Libm} {A v c m cb th : ℚ} {ls : List ℚ} {p : QPt} {N : Nat} {g r : Nat → QPt} (hv : 0 < v) (hc : c < 0) (hcb : m < cb)
    (hlow : m ≤ p.alt - A) (hp : p.dist = 0)
    (hlo : N * (cb - m) < sinkPerKm v c * ls.sum - (p.alt - A)) (hhi : sinkPerKm v c * ls.sum - (p.alt - A) ≤ (N + 1) * (cb - m))
    (hR : Rounds L A v c m cb th ls p (sinkPerKm v c * ls.sum - (p.alt - A)) (N + 1) g r) (k : Nat) (hk : k < N + 1) :
    (g k).alt = A + m ∧ A + m < (r k).alt ∧ (r k).alt ≤ A + cb ∧ 0 ≤ (g k).dist ∧ m < sinkPerKm v c * (ls.sum - (g k).dist) ∧
      (k < N → (r k).alt = A + cb ∧ (g k).dist < (g (k + 1)).dist) ∧
      ((List.range (N + 1)).map fun j => (r j).alt - (g j).alt).sum = sinkPerKm v c * ls.sum - (p.alt - A) := by
  have hK := sink_pos hv hc
  have hc0 : 0 < cb - m := by linarith
  have hmono : (k : ℚ) * (cb - m) ≤ N * (cb - m) := mul_le_mul_of_nonneg_right (by exact_mod_cast Nat.lt_succ_iff.mp hk) hc0.le
  have htop := hR.top k hk
  refine ⟨hR.low k hk, ?_, ?_, ?_, ?_, ?_, ?_⟩
  · rw [htop]; have : m < min cb (m + (sinkPerKm v c * ls.sum - (p.alt - A) - k * (cb - m))) := lt_min hcb (by linarith)
    linarith
  · rw [htop]; have := min_le_left cb (m + (sinkPerKm v c * ls.sum - (p.alt - A) - k * (cb - m))); linarith
  · rw [hR.way k hk, hp, zero_add]
    refine div_nonneg ?_ hK.le
    have : 0 ≤ (k : ℚ) * (cb - m) := mul_nonneg (by positivity) hc0.le
    linarith
  · rw [hR.way k hk, hp, zero_add, mul_sub, mul_div_cancel₀ _ hK.ne']
    linarith
  · intro hkN
    have h1 : ((k : ℚ) + 1) * (cb - m) ≤ N * (cb - m) := mul_le_mul_of_nonneg_right (by exact_mod_cast hkN) hc0.le
    refine ⟨?_, ?_⟩
    · rw [htop, min_eq_left (by linarith)]
    · rw [hR.way k hk, hR.way (k + 1) (by omega)]
      have : (p.alt - A - m + k * (cb - m)) / sinkPerKm v c < (p.alt - A - m + ((k + 1 : ℕ) : ℚ) * (cb - m)) / sinkPerKm v c :=
        div_lt_div_of_pos_right (by push_cast; linarith) hK
      linarith
  · have h1 : (List.range N).map (fun j => (r j).alt - (g j).alt) = (List.range N).map fun _ => cb - m := by
      refine List.map_congr_left fun j hj => ?_
      have hj' : j < N := List.mem_range.mp hj
      have h2 : ((j : ℚ) + 1) * (cb - m) ≤ N * (cb - m) := mul_le_mul_of_nonneg_right (by exact_mod_cast hj') hc0.le
      rw [hR.top j (by omega), hR.low j (by omega), min_eq_left (by linarith)]; ring
    rw [List.range_succ, List.map_append, List.sum_append, h1]
    simp only [List.map_const', List.length_range, List.sum_replicate, List.map_cons, List.map_nil, List.sum_cons, List.sum_nil, nsmul_eq_mul]
    rw [hR.top N (by omega), hR.low N (by omega), min_eq_right (by linarith)]; ring

section
variable {L : Libm} {t : Task} {A v c m cb th : ℚ} {ls : List ℚ}

theorem flat_endless (hL : LibmOk L) (hT : FlatTask t A ls) (hv : 0 < v) (hc : c < 0) (hm : 0 ≤ m) (hcb : cb ≤ m) (hr : th + c ≠ 0) (n : Nat) (p : QPt)
    (hp : p.leg < ls.length) (T : ℚ) (hT1 : T = sinkPerKm v c * (ls.sum - p.dist) - (p.alt - A)) (hd : p.dist < ls.sum) (hT0 : 0 < T) :
    estimateLoop (glideProg L) (pol v c) ⟨hgt cb, roc th⟩ t (hgt m) n p.fp (hgt T) = .ok none := by
  have hk := sink_pos hv hc
  induction n generalizing p T with
  | zero => rfl
  | succ n ih =>
    obtain ⟨q, r, h1, h2, h3, h4, h5, h6, h7, h8, h9, h10, h11⟩ := flat_round (m := m) (cb := cb) hL hT hv hc hr p hp hT1 hd (by linarith)
    have hmin : min T (cb - m) = cb - m := min_eq_right (by linarith)
    rw [hmin] at h2 h7 h11
    have hq : sinkPerKm v c * (ls.sum - q.dist) = T + m := by rw [h4, hT1]; field_simp; ring
    have hd' : r.dist < ls.sum := by
      rw [h8]; by_contra hcon
      have : sinkPerKm v c * (ls.sum - q.dist) ≤ 0 := mul_nonpos_of_nonneg_of_nonpos hk.le (by linarith [not_lt.mp hcon])
      linarith
    have hgt : numCompare (.f (T - (cb - m))) (.f 0) = .gt := by rw [numCompare_gt]; linarith
    have := ih r (by rw [h9]; exact h5.1) (T - (cb - m)) h11 hd' (by linarith)
    simp only [estimateLoop, h1, ok_bind, h2, prog_env, q_more, if_pos hgt, this, Option.map_none]

end

/-- What `estimate` does before the loop. -/
theorem flat_start {L : Libm} {t : Task} {A : ℚ} {ls : List ℚ} (hT : FlatTask t A ls) {v c h w : ℚ} (t0 : ℚ) (hv : v ≠ 0) (hc : c ≠ 0) (hw : w ≠ 0) :
    ∃ p : QPt, p.ts - t0 = h / w ∧ p.alt = A + h ∧ p.leg = 0 ∧ p.dist = 0 ∧ ∀ n W m, estimate (glideProg L) n (tim t0) (pol v c) W t m ⟨hgt h, roc w⟩ =
      (estimateLoop (glideProg L) (pol v c) W t m n p.fp (hgt (sinkPerKm v c * ls.sum - h)) >>= fun r => match r with
        | none => .ok none
        | some (rows, p2) => finalGlide (glideProg L) p2 (pol v c) t >>= fun p3 => .ok (some ((.tow, p.fp) :: rows ++ [(.finalGlide, p3)]))) := by
  let p0 : QPt := ⟨t0, A, 0, 0⟩
  let p : QPt := ⟨p0.ts + h / w, p0.alt + h, p0.leg, p0.dist⟩
  refine ⟨p, ?_, rfl, rfl, rfl, fun n W m => ?_⟩
  · show t0 + h / w - t0 = _; ring
  · have htk : takeoff (tim t0) t = .ok p0.fp := by
      unfold takeoff; rw [hT.of.start, List.replicate_succ]; rfl
    have htow : tow (glideProg L) p0.fp ⟨hgt h, roc w⟩ = .ok p.fp := q_tow L p0 hw
    have hgain := q_toGain L (p := p) hv hc hT.finish hT.of.total
    have eT : A + ls.sum / (v / -c) * 3600 - p.alt = sinkPerKm v c * ls.sum - h := by
      have : ls.sum / (v / -c) * 3600 = ls.sum * (1 / (v / -c) * 3600) := by ring
      rw [this, sink_eq]
      show _ - (A + h) = _
      ring
    rw [eT] at hgain
    simp only [estimate, htk, htow, ok_bind, hgain]
    rfl

theorem sum_pos_of {ls : List ℚ} (hne : ls ≠ []) (hpos : ∀ l ∈ ls, 0 < l) : 0 < ls.sum := by
  obtain ⟨l, ls', rfl⟩ := List.exists_cons_of_ne_nil hne
  rw [List.sum_cons]
  have h1 := hpos l (by simp)
  have h2 : 0 ≤ ls'.sum := List.sum_nonneg fun y hy => (hpos y (List.mem_cons_of_mem _ hy)).le
  linarith

/-- With a cloud base not above the height for safety, `estimate` never ends. -/
theorem C80_endless (L : Libm) (hL : LibmOk L) (A : ℚ) (ls : List ℚ) (hne : ls ≠ []) (hpos : ∀ l ∈ ls, 0 < l)
    (v c m cb th h w t0 : ℚ) (hv : 0 < v) (hc : c < 0) (hm : 0 ≤ m) (hcb : cb ≤ m) (hr : 0 < th + c) (hw : w ≠ 0)
    (hneed : h < sinkPerKm v c * ls.sum) :
    ∃ t, makeTask (glideProg L) (List.replicate (ls.length + 1) (alt A)) (ls.map dst) = .ok t ∧
      ∀ n, estimate (glideProg L) n (tim t0) (pol v c) ⟨hgt cb, roc th⟩ t (hgt m) ⟨hgt h, roc w⟩ = .ok none := by
  obtain ⟨t, ht, hof⟩ := makeTask_spec L (List.replicate (ls.length + 1) A) ls hne (by simp)
  rw [List.map_replicate] at ht
  have hT : FlatTask t A ls := ⟨hne, hpos, hof⟩
  refine ⟨t, ht, fun n => ?_⟩
  obtain ⟨p, h1, h2, h3, h4, h5⟩ := flat_start (L := L) (h := h) (w := w) hT t0 hv.ne' hc.ne hw
  rw [h5, flat_endless hL hT hv hc hm hcb hr.ne' n p (by rw [h3]; exact List.length_pos_of_ne_nil hne) _ (by rw [h2, h4]; ring)
    (by rw [h4]; exact sum_pos_of hne hpos) (by linarith)]
  rfl

/-- A tow so high that the first glide passes the finish makes `estimate` read a leg past the end. -/
theorem C80_overshoot (L : Libm) (hL : LibmOk L) (A : ℚ) (ls : List ℚ) (hne : ls ≠ []) (hpos : ∀ l ∈ ls, 0 < l)
    (v c m cb th h w t0 : ℚ) (hv : 0 < v) (hc : c < 0) (hw : w ≠ 0) (hhigh : sinkPerKm v c * ls.sum + m < h) :
    ∃ t, makeTask (glideProg L) (List.replicate (ls.length + 1) (alt A)) (ls.map dst) = .ok t ∧
      ∀ n, 0 < n → estimate (glideProg L) n (tim t0) (pol v c) ⟨hgt cb, roc th⟩ t (hgt m) ⟨hgt h, roc w⟩ = .error .precondition := by
  obtain ⟨t, ht, hof⟩ := makeTask_spec L (List.replicate (ls.length + 1) A) ls hne (by simp)
  rw [List.map_replicate] at ht
  have hT : FlatTask t A ls := ⟨hne, hpos, hof⟩
  refine ⟨t, ht, fun n hn => ?_⟩
  obtain ⟨n, rfl⟩ : ∃ n', n = n' + 1 := ⟨n - 1, by omega⟩
  obtain ⟨p, h1, h2, h3, h4, h5⟩ := flat_start (L := L) (h := h) (w := w) hT t0 hv.ne' hc.ne hw
  have hk := sink_pos hv hc
  obtain ⟨q, g1, g2, g3, g4, g5⟩ := flat_glide (m := m) hL hT hv hc p (by rw [h3]; exact List.length_pos_of_ne_nil hne) (by rw [h4]; exact sum_pos_of hne hpos)
  have hq : ls.sum < q.dist := by
    rw [g3, h4, h2, zero_add, lt_div_iff₀ hk]; linarith
  rw [index_past hpos hq] at g5
  have hterr : terrainLevel (glideProg L) t q.fp = .error .precondition := by
    have : t.legs[q.fp.leg]? = none := by
      rw [List.getElem?_eq_none_iff]; show t.legs.length ≤ q.leg; rw [g5, hof.count]
    simp only [terrainLevel, this]
  rw [h5]
  simp only [estimateLoop, g1, ok_bind, circle, hterr, error_bind]

/-- A tow high enough for the finish: the glider circles down, and the time of circling is not positive. -/
theorem C80_descends (L : Libm) (hL : LibmOk L) (A : ℚ) (ls : List ℚ) (hne : ls ≠ []) (hpos : ∀ l ∈ ls, 0 < l)
    (v c m cb th h w t0 : ℚ) (hv : 0 < v) (hc : c < 0) (hcb : m < cb) (hr : 0 < th + c) (hw : w ≠ 0)
    (h1 : sinkPerKm v c * ls.sum ≤ h) (h2 : h ≤ sinkPerKm v c * ls.sum + m) :
    ∃ t, makeTask (glideProg L) (List.replicate (ls.length + 1) (alt A)) (ls.map dst) = .ok t ∧
    ∃ p q r f : QPt, q.alt = A + m ∧ r.alt = q.alt - (h - sinkPerKm v c * ls.sum) ∧ r.ts = q.ts - (h - sinkPerKm v c * ls.sum) / (th + c) ∧
      f.alt = A ∧ f.dist = ls.sum ∧
      ∀ n, 0 < n → estimate (glideProg L) n (tim t0) (pol v c) ⟨hgt cb, roc th⟩ t (hgt m) ⟨hgt h, roc w⟩
        = .ok (some [(.tow, p.fp), (.glide, q.fp), (.circle, r.fp), (.finalGlide, f.fp)]) := by
  obtain ⟨t, ht, hof⟩ := makeTask_spec L (List.replicate (ls.length + 1) A) ls hne (by simp)
  rw [List.map_replicate] at ht
  have hT : FlatTask t A ls := ⟨hne, hpos, hof⟩
  refine ⟨t, ht, ?_⟩
  obtain ⟨p, p1, p2, p3, p4, p5⟩ := flat_start (L := L) (h := h) (w := w) hT t0 hv.ne' hc.ne hw
  obtain ⟨q, r, g1, g2, g3, g4, g5, g6, g7, g8, g9, g10, g11⟩ := flat_round (m := m) (cb := cb) (th := th) hL hT hv hc hr.ne' p
    (by rw [p3]; exact List.length_pos_of_ne_nil hne) (T := sinkPerKm v c * ls.sum - h) (by rw [p2, p4]; ring) (by rw [p4]; exact sum_pos_of hne hpos) (by linarith)
  have hmin : min (sinkPerKm v c * ls.sum - h) (cb - m) = sinkPerKm v c * ls.sum - h := min_eq_left (by linarith)
  rw [hmin] at g2 g7
  obtain ⟨s, hs⟩ := hL.sqrt ((ls.sum - r.dist) ^ 2 * 1000000 + (r.alt - A) ^ 2) (by positivity)
  let f : QPt := ⟨r.ts + s * (1 / 1000) / v * 3600, A, t.legs.length - 1, r.dist + (ls.sum - r.dist)⟩
  have hfin : finalGlide (glideProg L) r.fp (pol v c) t = .ok f.fp := q_final L hL.pow (c := c) (p := r) hv.ne' hT.finish hof.total hs
  refine ⟨p, q, r, f, g3, by rw [g7]; ring, ?_, rfl, ?_, fun n hn => ?_⟩
  · have := g10; rw [g7] at this
    have e : (q.alt + (sinkPerKm v c * ls.sum - h) - q.alt) / (th + c) = -((h - sinkPerKm v c * ls.sum) / (th + c)) := by rw [← neg_div]; congr 1; ring
    linarith
  · show r.dist + (ls.sum - r.dist) = _; ring
  · obtain ⟨n, rfl⟩ : ∃ n', n = n' + 1 := ⟨n - 1, by omega⟩
    have hgt : ¬ (numCompare (.f (sinkPerKm v c * ls.sum - h - (sinkPerKm v c * ls.sum - h))) (.f 0) = .gt) := by rw [numCompare_gt]; simp
    rw [p5]
    simp only [estimateLoop, g1, ok_bind, g2, prog_env, q_more, if_neg hgt, hfin]
    rfl

/-- A task needs two waypoints. -/
theorem C80_waypoints (L : Libm) (ls : List Kd) : makeTask (glideProg L) [] ls = .error .precondition ∧ ∀ a, makeTask (glideProg L) [a] ls = .error .precondition :=
  ⟨by cases ls <;> rfl, fun a => by cases ls <;> rfl⟩

/-- The altitude of the ground at the distance `d` on the leg `i`, linear between the waypoints. -/
def groundAt (as ls : List ℚ) (d : ℚ) (i : Nat) : ℚ :=
  as.getD i 0 + (as.getD (i + 1) 0 - as.getD i 0) * ((d - (ls.take i).sum) / ls.getD i 0)

/-- Any ground: the glide ends where the glide path meets the line, `m` above the ground, from here to the finish, but at the altitude `m` above the ground from where it
began. -/
theorem C80_glide_partial (L : Libm) (hL : LibmOk L) (as ls : List ℚ) (hne : ls ≠ []) (hlen : as.length = ls.length + 1) (hpos : ∀ l ∈ ls, 0 < l)
    (v c m : ℚ) (hv : 0 < v) (hc : c < 0) (p : QPt) (hp : OnLeg ls p.dist p.leg) (hd : p.dist < ls.sum)
    (hs : as.getD ls.length 0 - groundAt as ls p.dist p.leg ≠ -sinkPerKm v c * (ls.sum - p.dist)) :
    ∃ t, makeTask (glideProg L) (as.map alt) (ls.map dst) = .ok t ∧
    ∃ q : QPt, glide (glideProg L) p.fp (pol v c) t (hgt m) = .ok q.fp ∧
      p.alt - sinkPerKm v c * (q.dist - p.dist) = groundAt as ls p.dist p.leg + m +
        (as.getD ls.length 0 - groundAt as ls p.dist p.leg) / (ls.sum - p.dist) * (q.dist - p.dist) ∧
      q.alt = groundAt as ls p.dist p.leg + m ∧ GlideTime L v p q ∧ (q.dist ≤ ls.sum → OnLeg ls q.dist q.leg) := by
  obtain ⟨t, ht, hof⟩ := makeTask_spec L as ls hne hlen
  refine ⟨t, ht, ?_⟩
  have hi := hp.1
  have e1 : as[p.leg]? = some (as.getD p.leg 0) := by
    rw [List.getD_eq_getElem?_getD, List.getElem?_eq_getElem (by omega)]; rfl
  have e2 : as[p.leg + 1]? = some (as.getD (p.leg + 1) 0) := by
    rw [List.getD_eq_getElem?_getD, List.getElem?_eq_getElem (by omega)]; rfl
  have e3 : ls[p.leg]? = some (ls.getD p.leg 0) := by
    rw [List.getD_eq_getElem?_getD, List.getElem?_eq_getElem hi]; rfl
  have hl : 0 < ls.getD p.leg 0 := hpos _ (List.mem_of_getElem? e3)
  have hg : terrainLevel (glideProg L) t p.fp = .ok (alt (groundAt as ls p.dist p.leg)) :=
    q_terrain L (hof.legs p.leg _ _ _ e1 e2 e3) (hof.offset p.leg hi.le) hl.ne'
  have hf : t.finish = .ok (alt (as.getD ls.length 0)) := by
    unfold Task.finish
    rw [hof.start, List.getLast?_eq_getElem?, List.length_map, hlen, Nat.add_sub_cancel, List.getElem?_map, List.getD_eq_getElem?_getD,
      List.getElem?_eq_getElem (by omega)]
    rfl
  have hD : 0 < ls.sum - p.dist := sub_pos.mpr hd
  have hm : (groundAt as ls p.dist p.leg - as.getD ls.length 0) / (ls.sum - p.dist) - 1 / (v / -c) * 3600 ≠ 0 := by
    rw [sink_eq]
    intro h
    apply hs
    have h' : (groundAt as ls p.dist p.leg - as.getD ls.length 0) / (ls.sum - p.dist) = sinkPerKm v c := by linarith
    rw [div_eq_iff hD.ne'] at h'
    linarith
  obtain ⟨s, hsq⟩ := hL.sqrt (((groundAt as ls p.dist p.leg + m - p.alt) / ((groundAt as ls p.dist p.leg - as.getD ls.length 0) / (ls.sum - p.dist) - 1 / (v / -c) * 3600)) ^ 2 * 1000000
    + (p.alt - (groundAt as ls p.dist p.leg + m)) ^ 2) (by positivity)
  refine ⟨_, q_glide L hL.pow hg hv.ne' hc.ne hf hof.total hD.ne' hm rfl hsq (by rw [hof.totals]; exact q_legIndex L _ _), ?_, rfl, ⟨s, ?_, ?_⟩, fun hq => index_on hne hq⟩
  rotate_left
  · rw [← hsq]; congr 1; ring
  · show p.ts + _ - p.ts = _
    field_simp; ring
  rw [sink_eq] at hm ⊢
  have key : ∀ G M P D K F : ℚ, (G - F) / D - K ≠ 0 → P - K * ((G + M - P) / ((G - F) / D - K)) = G + M + (F - G) / D * ((G + M - P) / ((G - F) / D - K)) := by
    intro G M P D K F h
    have : (F - G) / D = -((G - F) / D) := by rw [← neg_div]; congr 1; ring
    rw [this]
    generalize (G - F) / D = S at h ⊢
    field_simp; ring
  show p.alt - _ * (p.dist + _ - p.dist) = _ + _ * (p.dist + _ - p.dist)
  rw [add_sub_cancel_left]
  exact key _ _ _ _ _ _ hm

/-- Any ground: circling ends at the cloud base or when the height is gained. -/
theorem C80_circle_partial (L : Libm) (as ls : List ℚ) (hne : ls ≠ []) (hlen : as.length = ls.length + 1) (hpos : ∀ l ∈ ls, 0 < l)
    (v c cb th T : ℚ) (hr : 0 < th + c) (p : QPt) (hp : OnLeg ls p.dist p.leg) :
    ∃ t, makeTask (glideProg L) (as.map alt) (ls.map dst) = .ok t ∧
    ∃ (q : QPt) (rest : ℚ), circle (glideProg L) p.fp (pol v c) ⟨hgt cb, roc th⟩ t (hgt T) = .ok (q.fp, hgt rest) ∧
      q.dist = p.dist ∧ q.leg = p.leg ∧ q.alt - p.alt = T - rest ∧ 0 ≤ rest ∧ q.alt ≤ groundAt as ls p.dist p.leg + cb ∧
      (rest = 0 ∨ q.alt = groundAt as ls p.dist p.leg + cb) ∧ (th + c) * (q.ts - p.ts) = q.alt - p.alt := by
  obtain ⟨t, ht, hof⟩ := makeTask_spec L as ls hne hlen
  refine ⟨t, ht, ?_⟩
  have hi := hp.1
  have e1 : as[p.leg]? = some (as.getD p.leg 0) := by
    rw [List.getD_eq_getElem?_getD, List.getElem?_eq_getElem (by omega)]; rfl
  have e2 : as[p.leg + 1]? = some (as.getD (p.leg + 1) 0) := by
    rw [List.getD_eq_getElem?_getD, List.getElem?_eq_getElem (by omega)]; rfl
  have e3 : ls[p.leg]? = some (ls.getD p.leg 0) := by
    rw [List.getD_eq_getElem?_getD, List.getElem?_eq_getElem hi]; rfl
  have hl : 0 < ls.getD p.leg 0 := hpos _ (List.mem_of_getElem? e3)
  have hg : terrainLevel (glideProg L) t p.fp = .ok (alt (groundAt as ls p.dist p.leg)) :=
    q_terrain L (hof.legs p.leg _ _ _ e1 e2 e3) (hof.offset p.leg hi.le) hl.ne'
  refine ⟨_, _, q_circle L hg hr.ne', rfl, rfl, ?_, ?_, ?_, ?_, ?_⟩
  · show p.alt + _ - p.alt = _; ring
  · have := min_le_left T (cb - (p.alt - groundAt as ls p.dist p.leg)); linarith
  · show p.alt + _ ≤ _
    have := min_le_right T (cb - (p.alt - groundAt as ls p.dist p.leg)); linarith
  · rcases min_choice T (cb - (p.alt - groundAt as ls p.dist p.leg)) with h | h
    · left; rw [h]; ring
    · right; show p.alt + _ = _; rw [h]; ring
  · show (th + c) * (p.ts + _ - p.ts) = p.alt + _ - p.alt
    have := hr.ne'
    field_simp; ring

/-- On rising ground the altitude computed for the end of a glide may be below the ground. -/
theorem C80_underground (L : Libm) (hL : LibmOk L) :
    ∃ t, makeTask (glideProg L) [alt 0, alt 3000] [dst 100] = .ok t ∧
    ∃ q : QPt, glide (glideProg L) (QPt.fp ⟨0, 1300, 0, 0⟩) (pol 108 (-3 / 4)) t (hgt 300) = .ok q.fp ∧ OnLeg [100] q.dist q.leg ∧
      q.alt + 245 < groundAt [0, 3000] [100] q.dist q.leg := by
  have hK : sinkPerKm 108 (-3 / 4) = 25 := by norm_num [sinkPerKm]
  obtain ⟨t, ht, q, h1, h2, h3, -, h4⟩ := C80_glide_partial L hL [0, 3000] [100] (by simp) rfl (by simp) 108 (-3 / 4) 300 (by norm_num) (by norm_num) ⟨0, 1300, 0, 0⟩
    ⟨by simp, by norm_num, Or.inl rfl⟩ (by norm_num) (by rw [hK]; norm_num [groundAt])
  refine ⟨t, ht, q, h1, ?_⟩
  have hd : q.dist = 200 / 11 := by
    rw [hK] at h2; norm_num [groundAt] at h2; linarith
  have ho := h4 (by rw [hd]; norm_num)
  refine ⟨ho, ?_⟩
  have hleg : q.leg = 0 := by have := ho.1; simp at this; exact this
  rw [h3, hleg, hd]; norm_num [groundAt]

/-! ### Examples -/

/-- Squares, and roots to six decimals. -/
def exGlideLibm : Libm where
  pow _ x e := if e = 2 then .ok (x ^ 2) else .error .nonfinite
  sqrt _ x := if 0 ≤ x then .ok (Nat.sqrt ⌊x * 10 ^ 12⌋.toNat / 10 ^ 6) else .error .nonfinite
  cbrt _ _ := .error .nonfinite
  exp _ _ := .error .nonfinite

theorem exGlideLibm_ok : LibmOk exGlideLibm := ⟨fun x => by simp [exGlideLibm], fun x hx => ⟨_, if_pos hx⟩⟩

-- the glider, the weather, the safety and the tow of the example, on a flat task of two legs: some 1619 metres are to be gained, in two thermals
example := C80_flat_partial exGlideLibm exGlideLibm_ok (16 * 381 / 1250) [35, 28] (by simp) (by simp) 83 (-7389 / 10000) 300 1900 (43 / 10) 400 (8 / 5) 0 (by norm_num) (by norm_num)
  (by norm_num) (by norm_num) (by norm_num) (by norm_num) (by norm_num [sinkPerKm])

-- the last of five rounds
example : ∃ (N : Nat) (g r : Nat → QPt), N = 4 ∧ (g N).alt = 305 ∧ 305 < (r N).alt ∧ (r N).alt ≤ 905 := by
  obtain ⟨t, -, N, g, r, p, f, h1, h2, -, h3, h4, h5, -⟩ := C80_flat_partial exGlideLibm exGlideLibm_ok 5 [100, 20] (by simp) (by simp) 108 (-3 / 4) 300 900 4 400 (8 / 5) 0
    (by norm_num) (by norm_num) (by norm_num) (by norm_num) (by norm_num) (by norm_num) (by norm_num [sinkPerKm])
  have e : p.alt - 5 = 400 := by rw [h3]; norm_num
  obtain ⟨a1, a2, a3, -⟩ := C80_safe_partial (L := exGlideLibm) (A := 5) (v := 108) (c := -3 / 4) (m := 300) (cb := 900) (th := 4) (ls := [100, 20]) (p := p)
    (g := g) (r := r) (N := N) (by norm_num) (by norm_num) (by norm_num) (by rw [e]; norm_num) h4 (by rw [e]; exact h1) (by rw [e]; exact h2) (by rw [e]; exact h5) N
    (by omega)
  refine ⟨N, g, r, ?_, by rw [a1]; norm_num, by norm_num at a2; exact a2, by norm_num at a3; exact a3⟩
  norm_num [sinkPerKm] at h1 h2
  have b1 : (N : ℚ) < 5 := by linarith
  have b2 : (3 : ℚ) < N := by linarith
  have c1 : N < 5 := by exact_mod_cast b1
  have c2 : 3 < N := by exact_mod_cast b2
  omega

example := C80_endless exGlideLibm exGlideLibm_ok 5 [100, 20] (by simp) (by simp) 108 (-3 / 4) 300 250 4 400 (8 / 5) 0 (by norm_num) (by norm_num)
  (by norm_num) (by norm_num) (by norm_num) (by norm_num) (by norm_num [sinkPerKm])

example := C80_overshoot exGlideLibm exGlideLibm_ok 5 [3] (by simp) (by simp) 108 (-3 / 4) 300 1900 4 400 (8 / 5) 0 (by norm_num) (by norm_num)
  (by norm_num) (by norm_num [sinkPerKm])

example := C80_descends exGlideLibm exGlideLibm_ok 5 [10, 4] (by simp) (by simp) 108 (-3 / 4) 300 1900 4 400 (8 / 5) 0 (by norm_num) (by norm_num)
  (by norm_num) (by norm_num) (by norm_num) (by norm_num [sinkPerKm]) (by norm_num [sinkPerKm])

example := C80_glide_partial exGlideLibm exGlideLibm_ok [5, 35, 5] [80, 60] (by simp) rfl (by simp) 108 (-3 / 4) 300 (by norm_num) (by norm_num) ⟨0, 1300, 1, 90⟩
  ⟨by simp, by norm_num, Or.inr (by norm_num)⟩ (by norm_num) (by norm_num [groundAt, sinkPerKm])

example := C80_circle_partial exGlideLibm [5, 35, 5] [80, 60] (by simp) rfl (by simp) 108 (-3 / 4) 1900 4 1000 (by norm_num) ⟨0, 1300, 1, 90⟩
  ⟨by simp, by norm_num, Or.inr (by norm_num)⟩

end Verif
