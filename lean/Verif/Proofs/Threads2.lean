import Verif.Proofs.Threads

/-!
# Lemmas about threads that use one container: what each method keeps
-/

set_option linter.unusedSectionVars false

namespace Shgpy.Threads
open Spec DataContainer

variable {K : Type} [Field K] [LinearOrder K] [IsStrictOrderedRing K] [FloorRing K] [HasPi K]
variable {L : Labels K} {ks : List Key} {pend : Slot → Multiset (Op K)}

theorem safe_build (f : List (K × K) → List (K × K)) (hf : ∀ a k v, L.data a k v → L.data (a + pend .data) k (f v)) (hks : ks.Nodup)
    (r : ℕ) (next : Dict Key (List (K × K)) → Prog K) : ∀ (l : List Key) (acc : Dict Key (List (K × K))) (g : Ghost K),
      Dict.keys acc ++ l = ks → (∀ it ∈ acc, L.data (g.wrote .data + pend .data) it.1 it.2) → r < g.n →
      (∀ g', g ≤ g' → ∀ d : Dict Key (List (K × K)), d.keys = ks → (∀ it ∈ d, L.data (g'.wrote .data + pend .data) it.1 it.2) →
        Safe L ks pend (next d) g') →
      Safe L ks pend (build f r next l acc) g
  | [], acc, g, hk, hacc, _, hn => hn g g.refl acc (by simpa using hk) hacc
  | k :: l, acc, g, hk, hacc, hr, hn => by
    have hnot : k ∉ Dict.keys acc := by
      intro hc
      rw [← hk, List.nodup_append] at hks
      exact hks.2.2 k hc k (by simp) rfl
    refine ⟨hr, by rw [← hk]; simp, fun g' hg v hv => ?_⟩
    refine safe_build f hf hks r next l _ g' ?_ ?_ (lt_of_lt_of_le hr hg.1) (fun g'' h'' => hn g'' (Ghost.trans hg h''))
    · rw [Dict.keys_set, if_neg hnot, ← hk]
      simp
    · intro it hit
      rcases mem_set_dict hit with rfl | hit
      · exact hf _ _ _ hv
      · exact L.data_mono (add_le_add_left (hg.2 _) _) (hacc it hit)

theorem safe_loop (f : List (K × K) → Except Err (List (K × K))) (hf : ∀ a k v w, f v = .ok w → L.data a k v → L.data a k w)
    (r : ℕ) : ∀ (l : List Key) (g : Ghost K), (∀ k ∈ l, k ∈ ks) → r < g.n → Safe L ks pend (loop f r (.stop none) l) g
  | [], _, _, _ => trivial
  | k :: l, g, hl, hr => by
    refine ⟨hr, hl k (by simp), fun g' hg v hv => ?_⟩
    dsimp only
    cases he : f v with
    | error e => trivial
    | ok w =>
      intro g'' hg' r' hr'
      refine ⟨hl k (by simp), L.data_mono (hg'.2 _) (hf _ _ _ _ he hv), fun g3 h3 => ?_⟩
      exact safe_loop f hf r l g3 (fun k' hk' => hl k' (by simp [hk'])) (lt_of_lt_of_le hr (hg.1.trans (hg'.1.trans h3.1)))

theorem safe_loopItems (f : List (K × K) → List (K × K)) (hf : ∀ a k v, L.data a k v → L.data a k (f v)) (next : Prog K) :
    ∀ (l : List (Key × List (K × K))) (g : Ghost K), (∀ it ∈ l, it.1 ∈ ks ∧ L.data (g.wrote .data) it.1 it.2) →
      (∀ g', g ≤ g' → Safe L ks pend next g') → Safe L ks pend (loopItems f next l) g
  | [], g, _, hn => hn g g.refl
  | (k, v) :: l, g, hl, hn => by
    intro g' hg r hr
    have h0 := hl (k, v) (by simp)
    refine ⟨h0.1, hf _ _ _ (L.data_mono (hg.2 _) h0.2), fun g'' hg' => ?_⟩
    refine safe_loopItems f hf next l g'' (fun it hit => ?_) (fun g3 h3 => hn g3 (Ghost.trans (Ghost.trans hg hg') h3))
    have := hl it (by simp [hit])
    exact ⟨this.1, L.data_mono ((hg.2 _).trans (hg'.2 _)) this.2⟩

theorem safe_min (r : ℕ) (next : Option (Key × K) → Prog K) : ∀ (l : List Key) (best : Option (Key × K)) (g : Ghost K),
    (∀ k ∈ l, k ∈ ks) → r < g.n → (∀ g', g ≤ g' → ∀ b, Safe L ks pend (next b) g') → Safe L ks pend (minProg r next l best) g
  | [], best, g, _, _, hn => hn g g.refl best
  | k :: l, best, g, hl, hr, hn => by
    refine ⟨hr, hl k (by simp), fun g' hg v _ => ?_⟩
    dsimp only
    cases pyMin (v.map Prod.snd) with
    | error e => trivial
    | ok m =>
      exact safe_min r next l _ g' (fun k' hk' => hl k' (by simp [hk'])) (lt_of_lt_of_le hr hg.1)
        (fun g'' h'' => hn g'' (Ghost.trans hg h''))

theorem safe_max (r : ℕ) (next : Option (Key × K) → Prog K) : ∀ (l : List Key) (best : Option (Key × K)) (g : Ghost K),
    (∀ k ∈ l, k ∈ ks) → r < g.n → (∀ g', g ≤ g' → ∀ b, Safe L ks pend (next b) g') → Safe L ks pend (maxProg r next l best) g
  | [], best, g, _, _, hn => hn g g.refl best
  | k :: l, best, g, hl, hr, hn => by
    refine ⟨hr, hl k (by simp), fun g' hg v _ => ?_⟩
    dsimp only
    cases pyMax (v.map Prod.snd) with
    | error e => trivial
    | ok m =>
      exact safe_max r next l _ g' (fun k' hk' => hl k' (by simp [hk'])) (lt_of_lt_of_le hr hg.1)
        (fun g'' h'' => hn g'' (Ghost.trans hg h''))

theorem safe_scale (hks : ks.Nodup) (s : K) (g : Ghost K)
    (hd : ¬ s < 0 → ∀ a k v, L.data a k v → L.data (a + pend .data) k (v.map (fun p => (p.1, s * p.2))))
    (hs : ¬ s < 0 → ∀ a x, L.scale a x → L.scale (a + pend .scale) (x * s)) : Safe L ks pend (scaleProg s) g := by
  unfold scaleProg
  by_cases h0 : s < 0
  · rw [if_pos h0]; trivial
  · rw [if_neg h0]
    intro g1 h1 r hr
    refine ⟨hr, fun g2 h2 => ?_⟩
    refine safe_build _ (hd h0) hks r _ ks [] g2 rfl (by simp) (lt_of_lt_of_le hr h2.1) (fun g3 h3 d hk hv => ⟨hk, hv, fun g4 h4 => ?_⟩)
    intro g5 h5 x hx
    exact ⟨hs h0 _ _ hx, fun g6 h6 => trivial⟩

theorem safe_shift (hks : ks.Nodup) (a : K) (u : Key) (g : Ghost K)
    (hd : ∀ r, angleOf a u = .ok r → ∀ b k v, L.data b k v → L.data (b + pend .data) k (v.map (fun p => (pmod (p.1 + r), p.2))))
    (hp : ∀ r, angleOf a u = .ok r → ∀ b x, L.phase b x → L.phase (b + pend .phase) (x + r))
    (hsort : ∀ b k v, L.data b k v → L.data b k (sortPts v)) : Safe L ks pend (shiftProg a u) g := by
  unfold shiftProg
  cases ha : angleOf a u with
  | error e => trivial
  | ok t =>
    intro g1 h1 r hr
    refine ⟨hr, fun g2 h2 => ?_⟩
    refine safe_build _ (hd t ha) hks r _ ks [] g2 rfl (by simp) (lt_of_lt_of_le hr h2.1) (fun g3 h3 d hk hv => ⟨hk, hv, fun g4 h4 => ?_⟩)
    intro g5 h5 x hx
    refine ⟨hp t ha _ _ hx, fun g6 h6 => ?_⟩
    intro g7 h7 r' hr'
    refine ⟨hr', fun g8 h8 => ?_⟩
    exact safe_loop _ (fun b k v w e h => by cases e; exact hsort _ _ _ h) r' ks g8 (fun k hk => hk) (lt_of_lt_of_le hr' h8.1)

theorem safe_subtract (g : Ghost K) (hd : ∀ (m : K) a k v, L.data a k v → L.data a k (v.map (fun p => (p.1, p.2 - m))))
    (ho : ∀ x, L.offset x) : Safe L ks pend (subtractProg) g := by
  unfold subtractProg
  intro g1 h1 r hr
  refine ⟨hr, fun g2 h2 => ?_⟩
  refine safe_min r _ ks none g2 (fun k hk => hk) (lt_of_lt_of_le hr h2.1) (fun g3 h3 b => ?_)
  intro g4 h4 r' hr'
  refine ⟨hr', fun g5 h5 d hk hv => ?_⟩
  cases b with
  | none => exact fun g6 h6 x _ => ⟨ho _, fun _ _ => trivial⟩
  | some b =>
    obtain ⟨k, m⟩ := b
    refine safe_loopItems _ (hd m) _ d g5 (fun it hit => ⟨?_, hv it hit⟩) (fun g6 h6 => fun g7 h7 x _ => ⟨ho _, fun _ _ => trivial⟩)
    rw [← hk]
    exact List.mem_map_of_mem hit

theorem safe_normalize (hks : ks.Nodup) (d : K) (g : Ghost K)
    (hd : ∀ s : K, ∀ a k v, L.data a k v → L.data (a + pend .data) k (v.map (fun p => (p.1, s * p.2))))
    (hs : ∀ s : K, ∀ a x, L.scale a x → L.scale (a + pend .scale) (x * s)) : Safe L ks pend (normalizeProg d) g := by
  unfold normalizeProg
  intro g1 h1 r hr
  refine ⟨hr, fun g2 h2 => ?_⟩
  refine safe_max r _ ks none g2 (fun k hk => hk) (lt_of_lt_of_le hr h2.1) (fun g3 h3 b => ?_)
  cases b with
  | none => exact safe_scale hks 0 g3 (fun _ => hd 0) (fun _ => hs 0)
  | some b =>
    obtain ⟨k, m⟩ := b
    dsimp only
    split_ifs
    · trivial
    · trivial
    · exact safe_scale hks _ g3 (fun _ => hd _) (fun _ => hs _)

theorem safe_filter (f : List K → Except Err (List K)) (g : Ghost K)
    (hf : ∀ a k v w, filterItem f v = .ok w → L.data a k v → L.data a k w) : Safe L ks pend (filterProg f) g := by
  unfold filterProg
  intro g1 h1 r hr
  refine ⟨hr, fun g2 h2 => ?_⟩
  exact safe_loop _ hf r ks g2 (fun k hk => hk) (lt_of_lt_of_le hr h2.1)

/-- The points of a combination are as many as there were, with angles within a turn. -/
def shapeLabels (d : Dict Key (List (K × K))) : Labels K where
  data _ k v := ∃ v0, (k, v0) ∈ d ∧ v.length = v0.length ∧ ∀ p ∈ v, InTurn p.1
  scale _ _ := True
  phase _ _ := True
  offset _ := True
  data_mono _ _ _ h := h
  scale_mono _ _ h := h
  phase_mono _ _ h := h

theorem shape_safe {d : Dict Key (List (K × K))} (hks : ks.Nodup) (op : Op K) (pend : Slot → Multiset (Op K)) (g : Ghost K) :
    Safe (shapeLabels d) ks pend (prog op) g := by
  have hmap : ∀ (b : List (K × K) → List (K × K)), (∀ v, (b v).length = v.length) → (∀ v, (∀ p ∈ v, InTurn p.1) → ∀ p ∈ b v, InTurn p.1) →
      ∀ a a' k v, (shapeLabels d).data a k v → (shapeLabels d).data a' k (b v) := by
    rintro b h1 h2 a a' k v ⟨v0, h3, h4, h5⟩
    exact ⟨v0, h3, (h1 v).trans h4, h2 v h5⟩
  have hval : ∀ (y : K → K), ∀ v : List (K × K), (∀ p ∈ v, InTurn p.1) → ∀ p ∈ v.map (fun p => (p.1, y p.2)), InTurn p.1 := by
    intro y v hv p hp
    obtain ⟨q, hq, rfl⟩ := List.mem_map.1 hp
    exact hv q hq
  cases op with
  | scale s =>
    exact safe_scale hks s g (fun _ a k v h => hmap _ (by simp) (hval (fun y => s * y)) _ _ k v h) (fun _ _ _ _ => trivial)
  | subtractMin => exact safe_subtract g (fun m a k v h => hmap _ (by simp) (hval (fun y => y - m)) _ _ k v h) (fun _ => trivial)
  | normalize x =>
    exact safe_normalize hks x g (fun s a k v h => hmap _ (by simp) (hval (fun y => s * y)) _ _ k v h) (fun _ _ _ _ => trivial)
  | phaseShift a u =>
    refine safe_shift hks a u g (fun r _ b k v h => hmap (fun v => v.map (fun p : K × K => (pmod (p.1 + r), p.2))) (by simp) ?_ _ _ k v h)
      (fun _ _ _ _ _ => trivial)
      (fun b k v h => hmap sortPts (fun v => (sortPts_perm v).length_eq) (fun v hv p hp => hv p ((sortPts_perm v).mem_iff.1 hp)) _ _ k v h)
    intro v _ p hp
    obtain ⟨q, _, rfl⟩ := List.mem_map.1 hp
    exact pmod_inTurn _
  | filter f =>
    refine safe_filter f g (fun a k v w hw h => ?_)
    obtain ⟨v0, h3, h4, h5⟩ := h
    unfold filterItem at hw
    cases hy : f (v.map Prod.snd) with
    | error e => rw [hy] at hw; cases hw
    | ok ys =>
      rw [hy] at hw
      dsimp only at hw
      split_ifs at hw with hl
      cases hw
      refine ⟨v0, h3, by simp [hl, h4], fun p hp => ?_⟩
      obtain ⟨q, hq, e⟩ := List.mem_map.1 (List.of_mem_zip hp).1
      rw [← e]
      exact h5 q hq

/-- What some of the calls make of the container. -/
def valueLabels (c : DataContainer K) : Labels K where
  data a k v := ∃ v0, (k, v0) ∈ c.data ∧ ∃ A : List (Op K), (A : Multiset (Op K)) ≤ a ∧ Matched (Moved (turns A) (factors A)) v0 v
  scale a x := ∃ A : List (Op K), (A : Multiset (Op K)) ≤ a ∧ x = c.scale * factors A
  phase a x := ∃ A : List (Op K), (A : Multiset (Op K)) ≤ a ∧ x = c.phaseShift + turns A
  offset x := x = c.offset
  data_mono h _ _ := fun ⟨v0, h1, A, h2, h3⟩ => ⟨v0, h1, A, h2.trans h, h3⟩
  scale_mono h _ := fun ⟨A, h2, h3⟩ => ⟨A, h2.trans h, h3⟩
  phase_mono h _ := fun ⟨A, h2, h3⟩ => ⟨A, h2.trans h, h3⟩

theorem cons_le {A : List (Op K)} {a : Multiset (Op K)} (op : Op K) (h : (A : Multiset (Op K)) ≤ a) :
    ((op :: A : List (Op K)) : Multiset (Op K)) ≤ a + {op} := by
  rw [← Multiset.cons_coe, add_comm, Multiset.singleton_add]
  exact Multiset.cons_le_cons op h

theorem turnOf_eq {a : K} {u : Key} {r : K} (h : angleOf a u = .ok r) : turnOf (.phaseShift a u) = r := by
  simp only [turnOf]
  rcases angleOf_ok h with ⟨h1, rfl⟩ | ⟨h1, rfl⟩
  · rw [if_pos h1]
  · rw [if_neg (by rw [h1]; decide), if_pos h1]
    unfold deg2rad
    ring

theorem value_safe {c : DataContainer K} (hks : ks.Nodup) {op : Op K} (hop : ScaleOrTurn op) (g : Ghost K) :
    Safe (valueLabels c) ks (fun _ => {op}) (prog op) g := by
  cases op with
  | subtractMin => exact hop.elim
  | normalize _ => exact hop.elim
  | filter _ => exact hop.elim
  | scale s =>
    refine safe_scale hks s g (fun h0 a k v h => ?_) (fun h0 a x h => ?_)
    · obtain ⟨v0, h1, A, h2, h3⟩ := h
      refine ⟨v0, h1, _, cons_le _ h2, ?_⟩
      have h4 : Matched (Moved 0 s) v (v.map (fun p : K × K => (p.1, s * p.2))) := by
        refine Matched.of_forall₂ ?_
        rw [List.forall₂_map_right_iff, List.forall₂_same]
        exact fun p _ => ⟨by rw [add_zero]; exact AngleEq.refl _, rfl⟩
      refine Matched.mono ?_ (h3.trans (T := Moved (turns A + 0) (s * factors A)) (fun p q r => ?_) h4)
      · intro p q h
        simpa [turns, factors, turnOf, factorOf, h0] using h
      · intro h5 h6
        rw [mul_comm]
        exact moved_trans p q r h5 h6
    · obtain ⟨A, h2, rfl⟩ := h
      refine ⟨_, cons_le (.scale s) h2, ?_⟩
      simp only [factors, List.map_cons, List.prod_cons, factorOf, if_neg h0]
      ring
  | phaseShift a u =>
    refine safe_shift hks a u g (fun r hr b k v h => ?_) (fun r hr b x h => ?_) (fun b k v h => ?_)
    · obtain ⟨v0, h1, A, h2, h3⟩ := h
      refine ⟨v0, h1, _, cons_le _ h2, ?_⟩
      have h4 : Matched (Moved r 1) v (v.map (fun p : K × K => (pmod (p.1 + r), p.2))) := by
        refine Matched.of_forall₂ ?_
        rw [List.forall₂_map_right_iff, List.forall₂_same]
        exact fun p _ => ⟨pmod_angleEq _, (one_mul _).symm⟩
      refine Matched.mono ?_ (h3.trans (T := Moved (turns A + r) (1 * factors A)) (fun p q r => ?_) h4)
      · intro p q h
        have e1 : turns (.phaseShift a u :: A) = turns A + r := by
          simp only [turns, List.map_cons, List.sum_cons, turnOf_eq hr]
          ring
        have e2 : factors (.phaseShift a u :: A) = 1 * factors A := by simp [factors, factorOf]
        rw [e1, e2]
        exact h
      · intro h5 h6
        rw [mul_comm]
        exact moved_trans p q r h5 h6
    · obtain ⟨A, h2, rfl⟩ := h
      refine ⟨_, cons_le (.phaseShift a u) h2, ?_⟩
      simp only [turns, List.map_cons, List.sum_cons, turnOf_eq hr]
      ring
    · obtain ⟨v0, h1, A, h2, m, h3, h4⟩ := h
      exact ⟨v0, h1, A, h2, m, h3, (sortPts_perm v).trans h4⟩

end Shgpy.Threads
