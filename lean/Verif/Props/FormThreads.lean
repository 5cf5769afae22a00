import Verif.Proofs.FormThreads4
import Verif.Props.Form

/-!
# Threads that use one container of formulas at the same time: C144

`start d calls` are threads that are going to make calls on the container with the dictionary `d`, the thread with number `i` the calls
`calls[i]`.  A schedule is the list of the threads that make the single accesses; `formulaAfter` and `fourierAfter` are the container after
a schedule as another thread sees it at that moment.
-/

namespace Shgpy
open Spec FormThreads

/-! ### Threads that take turns -/

/-- **C144, `FormContainer`, threads that take turns.**  When each call is made under a lock, the container is at every moment without a call in
progress the one that the calls made so far give one after the other; when all threads are finished, these are all the calls. -/
theorem C144_formula_in_turns (S : Sympy) {c : FormContainer} (hc : c.Reachable S) {calls : List (List FormContainer.Op)}
    {w : World Expr FormContainer.Op} {done : List FormContainer.Op} (h : TakingTurns (prog S) (start c.form calls) w done) :
    (⟨w.mem.dict⟩ : FormContainer) = FormContainer.run S c done ∧ (AllDone w → done.Perm calls.flatten) := by
  obtain ⟨h1, _, h3⟩ := inTurns (G := Dict.WF) (mk := fun d => (⟨d⟩ : FormContainer)) (st := fun c op => (FormContainer.step S c op).1)
    (fun op m hm => finish_prog S op m hm) (w := start c.form calls) ⟨by simp [start], hc.wf⟩ h
  refine ⟨h1, fun hf => ?_⟩
  rw [remaining_finished hf, remaining_start, zero_add] at h3
  exact Multiset.coe_eq_coe.1 h3

/-- **C144, `fFormContainer`, threads that take turns.** -/
theorem C144_fourier_in_turns (S : Sympy) {c : FFormContainer} (hc : c.Reachable S) {calls : List (List FFormContainer.Op)}
    {w : World FArr FFormContainer.Op} {done : List FFormContainer.Op} (h : TakingTurns (fprog S c.M) (start c.fform calls) w done) :
    (⟨w.mem.dict, c.M⟩ : FFormContainer) = FFormContainer.run S c done ∧ (AllDone w → done.Perm calls.flatten) := by
  obtain ⟨h1, _, h3⟩ := inTurns (G := fun d => FFormContainer.Good ⟨d, c.M⟩) (mk := fun d => (⟨d, c.M⟩ : FFormContainer))
    (st := fun c op => (FFormContainer.step S c op).1) (fun op m hm => finish_fprog S c.M op m hm)
    (w := start c.fform calls) ⟨by simp [start], hc.good⟩ h
  refine ⟨h1, fun hf => ?_⟩
  rw [remaining_finished hf, remaining_start, zero_add] at h3
  exact Multiset.coe_eq_coe.1 h3

/-! ### Any schedule -/

/-- **C144, `FormContainer`, any calls and any schedule.**  At every moment the combinations are what they were, and the formula of each is the
original one after some of the calls in some order, each call at most once.  What is missing of the property that the calls have the effect
they have one after the other: these may be different calls for the different combinations, and need not be all calls when all threads are
finished (`C144_lost_substitution_broken`). -/
theorem C144_formula_values_partial (S : Sympy) {c : FormContainer} (hc : c.Reachable S) (calls : List (List FormContainer.Op))
    (sched : List ℕ) :
    (formulaAfter S c calls sched).getKeys = c.getKeys ∧
    ∀ k f, Represents c k f → ∃ A, A.Subperm calls.flatten ∧ Represents (formulaAfter S c calls sched) k (formEffects A f) := by
  have hwf := hc.wf
  have hinv : Inv (formLabels c) (Dict.keys c.form) (calls.flatten : Multiset FormContainer.Op) ((start c.form calls).run (prog S) sched) :=
    Inv.run (fun op g => prog_safe S hwf op g) sched (inv_start calls (fun it hit => ⟨it.2, hit, [], by simp, fun σ => rfl⟩))
  obtain ⟨g, hm, ts, _, _, hsum⟩ := hinv.ex
  unfold formulaAfter
  generalize ((start c.form calls).run (prog S) sched).mem = m at hm ⊢
  have hmem : m.dict ∈ m.heap := mem_getD hm.cur
  have hkeys : Dict.keys m.dict = Dict.keys c.form := hm.keys _ hmem
  have hwf' : Dict.WF m.dict := by
    unfold Dict.WF
    rw [hkeys]
    exact hwf
  refine ⟨hkeys, fun k f ⟨e, he, hf⟩ => ?_⟩
  have hk' := Dict.get_ok_iff.1 he
  have hkm : k ∈ Dict.keys m.dict := by
    rw [hkeys]
    exact List.mem_map_of_mem (Dict.mem_of_get? hk')
  obtain ⟨it, hit, rfl⟩ := List.mem_map.1 hkm
  obtain ⟨e0, h1, A, h2, h3⟩ := hm.data _ hmem it hit
  have e' : e0 = e := Option.some.inj (((Dict.get?_eq_some_iff hwf).2 h1).symm.trans hk')
  subst e'
  refine ⟨A, Multiset.coe_le.1 (h2.trans (le_trans (Multiset.le_add_right _ _) (hsum _))), it.2,
    Dict.get_ok_iff.2 ((Dict.get?_eq_some_iff hwf').2 hit), fun σ => ?_⟩
  rw [h3, show (fun σ => e0.eval σ) = f from funext hf]

/-- **C144, `fFormContainer`, any calls and any schedule.**  At every moment the combinations and `M` are what they were, and each component of
each combination is the original one after some of the calls in some order, each call at most once.  What is missing of the property that the
calls have the effect they have one after the other: these may be different calls for the different combinations and even for the components of
one combination (`C144_torn_component_broken`), and need not be all calls when all threads are finished. -/
theorem C144_fourier_values_partial (S : Sympy) {c : FFormContainer} (hc : c.Reachable S) (calls : List (List FFormContainer.Op))
    (sched : List ℕ) :
    (fourierAfter S c calls sched).getKeys = c.getKeys ∧ (fourierAfter S c calls sched).getM = c.getM ∧
    ∀ k m f, FRepresents c k m f → ∃ A, A.Subperm calls.flatten ∧ FRepresents (fourierAfter S c calls sched) k m (fformEffects m A f) := by
  have hg := hc.good
  have hinv : Inv (fformLabels c) (Dict.keys c.fform) (calls.flatten : Multiset FFormContainer.Op)
      ((start c.fform calls).run (fprog S c.M) sched) :=
    Inv.run (fun op g => fprog_safe S hg.wf op g) sched
      (inv_start calls (fun it hit => ⟨hg.len it hit, fun i o ho => ⟨it.2, hit, o, ho, [], by simp, fun σ => rfl⟩⟩))
  obtain ⟨g, hm, ts, _, _, hsum⟩ := hinv.ex
  unfold fourierAfter
  generalize ((start c.fform calls).run (fprog S c.M) sched).mem = m at hm ⊢
  have hmem : m.dict ∈ m.heap := mem_getD hm.cur
  have hkeys : Dict.keys m.dict = Dict.keys c.fform := hm.keys _ hmem
  have hwf' : Dict.WF m.dict := by
    unfold Dict.WF
    rw [hkeys]
    exact hg.wf
  refine ⟨hkeys, rfl, fun k j f ⟨a, o, ha, ⟨hj, ho⟩, hf⟩ => ?_⟩
  have hk' := Dict.get_ok_iff.1 ha
  have hkm : k ∈ Dict.keys m.dict := by
    rw [hkeys]
    exact List.mem_map_of_mem (Dict.mem_of_get? hk')
  obtain ⟨it, hit, rfl⟩ := List.mem_map.1 hkm
  obtain ⟨hlen, hcomp⟩ := hm.data _ hmem it hit
  unfold FFormContainer.getM at hj ho
  have hi : (j + c.M).toNat < it.2.objs.length := by omega
  obtain ⟨v0, h1, o0, h2, A, h3, h4⟩ := hcomp _ _ (List.getElem?_eq_getElem hi)
  have e' : v0 = a := Option.some.inj (((Dict.get?_eq_some_iff hg.wf).2 h1).symm.trans hk')
  subst e'
  have e'' : o0 = o := Option.some.inj (h2.symm.trans ho)
  subst e''
  refine ⟨A, Multiset.coe_le.1 (h3.trans (le_trans (Multiset.le_add_right _ _) (hsum _))), it.2, it.2.objs[(j + c.M).toNat],
    Dict.get_ok_iff.2 ((Dict.get?_eq_some_iff hwf').2 hit), ⟨hj, List.getElem?_eq_getElem hi⟩, fun σ => ?_⟩
  have hmm : (((j + c.M).toNat : ℕ) : ℤ) - c.M = j := by omega
  rw [h4, hmm, show (fun σ => objValue σ o0) = f from funext hf]

/-! ### Schedules that go wrong -/

/-- **C144 is false: a lost substitution.**  One thread calls `simplify` or `expand`, another substitutes.  There is a schedule after which both are
finished and the container is the one after the first call alone: the formulas stand for the functions they stood for before, and not for the
substituted ones, which they stand for after both calls one after the other in either order. -/
theorem C144_lost_substitution_broken (S : Sympy) {c : FormContainer} (hc : c.Reachable S) (r : Rewriting) (pairs : List (Sym × Expr)) :
    ∃ sched, AllDone ((start c.form [[.rewrite r], [.subs pairs]]).run (prog S) sched) ∧
      formulaAfter S c [[.rewrite r], [.subs pairs]] sched = FormContainer.run S c [.rewrite r] ∧
      ∀ k f, Represents c k f → Represents (formulaAfter S c [[.rewrite r], [.subs pairs]] sched) k f ∧
        Represents (FormContainer.run S c [.rewrite r, .subs pairs]) k (fun σ => f (assigned pairs σ)) ∧
        Represents (FormContainer.run S c [.subs pairs, .rewrite r]) k (fun σ => f (assigned pairs σ)) := by
  have hwf := hc.wf
  obtain ⟨d⟩ := c
  have hwf : Dict.WF d := hwf
  set w1 : World Expr FormContainer.Op := ⟨⟨[d], 0⟩, [⟨rewriteLoop r.run d, []⟩, ⟨prog S (.subs pairs), []⟩]⟩ with hw1
  have e1 : (start d [[.rewrite r], [.subs pairs]]).run (prog S) [0, 0, 0, 1] = w1 := rfl
  obtain ⟨n, hn, _⟩ := run_method (pr := prog S) 1 (prog S (.subs pairs)) w1 [] rfl
  have hv : Valid Dict.WF w1.mem := ⟨by simp [hw1], hwf⟩
  obtain ⟨f1, f2⟩ := finish_prog S (.subs pairs) w1.mem hv
  set m2 := ((prog S (.subs pairs)).finish w1.mem).2 with hm2
  have hstep : ∀ (d : Dict Key Expr), Dict.WF d → ∀ op, (FormContainer.step S ⟨d⟩ op).1 = ⟨d.mapVals (FormContainer.opF S op)⟩ := by
    intro d hd op
    rw [FormContainer.step_eq S (c := ⟨d⟩) hd]
  have hd2 : m2.dict = d.mapVals (S.subs pairs) := by
    have : (⟨m2.dict⟩ : FormContainer) = ⟨d.mapVals (S.subs pairs)⟩ := f1.trans (hstep d hwf _)
    exact congrArg FormContainer.form this
  set w2 : World Expr FormContainer.Op := ⟨m2, w1.threads.set 1 ⟨.stop ((prog S (.subs pairs)).finish w1.mem).1, []⟩⟩ with hw2
  obtain ⟨n', hn', _⟩ := run_method (pr := prog S) 0 (rewriteLoop r.run d) w2 [] rfl
  have hfin : (rewriteLoop r.run d).finish m2 = (none, m2.put (d.mapVals r.run)) := by
    have := finish_rewriteLoop' r.run d m2.dict [] m2 f2.cur (by simpa using f2.good) (by simp) (by rw [hd2, Dict.keys_mapVals])
    simpa using this
  refine ⟨[0, 0, 0, 1] ++ (List.replicate n 1 ++ List.replicate n' 0), ?_⟩
  have hend : (start d [[.rewrite r], [.subs pairs]]).run (prog S) ([0, 0, 0, 1] ++ (List.replicate n 1 ++ List.replicate n' 0)) =
      ⟨m2.put (d.mapVals r.run), w2.threads.set 0 ⟨.stop none, []⟩⟩ := by
    rw [run_append, e1, run_append, hn, hn', show w2.mem = m2 from rfl, hfin]
  have hafter : formulaAfter S ⟨d⟩ [[.rewrite r], [.subs pairs]] ([0, 0, 0, 1] ++ (List.replicate n 1 ++ List.replicate n' 0)) =
      ⟨d.mapVals r.run⟩ := by
    unfold formulaAfter
    rw [hend]
    dsimp only
    rw [dict_put f2.cur]
  have hrep : ∀ (d : Dict Key Expr), Dict.WF d → ∀ op k f, Represents ⟨d⟩ k f →
      Represents (FormContainer.step S ⟨d⟩ op).1 k (formEffect op f) := by
    rintro d hd op k f ⟨e, he, hf⟩
    rw [hstep d hd]
    refine ⟨FormContainer.opF S op e, ?_, fun σ => FormContainer.eval_opF S op e f hf σ⟩
    unfold FormContainer.getPc at he ⊢
    rw [Dict.get_ok_iff] at he ⊢
    rw [Dict.get?_mapVals, he]
    rfl
  have hrun : FormContainer.run S ⟨d⟩ [.rewrite r] = ⟨d.mapVals r.run⟩ := hstep d hwf (.rewrite r)
  refine ⟨?_, hafter.trans hrun.symm, fun k f hk => ⟨?_, ?_, ?_⟩⟩
  · rw [hend]
    intro t ht
    have : t = ⟨.stop none, []⟩ ∨ t = ⟨.stop ((prog S (.subs pairs)).finish w1.mem).1, []⟩ := by
      simpa [hw2, hw1] using ht
    rcases this with rfl | rfl
    · exact ⟨⟨_, rfl⟩, rfl⟩
    · exact ⟨⟨_, rfl⟩, rfl⟩
  · rw [hafter, ← hrun]
    exact hrep d hwf (.rewrite r) k f hk
  · have h1 := hrep d hwf (.rewrite r) k f hk
    rw [hstep d hwf] at h1
    have h2 := hrep _ (wf_mapVals hwf _) (.subs pairs) k _ h1
    rw [← hstep d hwf] at h2
    exact h2
  · have h1 := hrep d hwf (.subs pairs) k f hk
    rw [hstep d hwf] at h1
    have h2 := hrep _ (wf_mapVals hwf _) (.rewrite r) k _ h1
    rw [← hstep d hwf] at h2
    exact h2

/-- **C144 is false: components of one combination after different calls.**  One thread substitutes in a Fourier formula, another multiplies it by
`s`.  There is a schedule after which both are finished; the component of the lowest frequency is substituted only, all others are multiplied
and then substituted. -/
theorem C144_torn_component_broken (S : Sympy) {c : FFormContainer} (hc : c.Reachable S) (hs : Symbolic c) {k : Key} (hk : c.getKeys = [k])
    (pairs : List (Sym × Expr)) (s : Expr) :
    ∃ sched, AllDone ((start c.fform [[.subs pairs], [.scale s]]).run (fprog S c.M) sched) ∧
      (∀ f, FRepresents c k (-(c.getM : ℤ)) f → FRepresents (fourierAfter S c [[.subs pairs], [.scale s]] sched) k (-(c.getM : ℤ))
        (fun σ => f (assigned pairs σ))) ∧
      ∀ m f, -(c.getM : ℤ) < m → FRepresents c k m f → FRepresents (fourierAfter S c [[.subs pairs], [.scale s]] sched) k m
        (fun σ => s.eval (assigned pairs σ) * f (assigned pairs σ)) := by
  have hg := hc.good
  obtain ⟨d, M⟩ := c
  obtain ⟨v, rfl, hv⟩ : ∃ v, d = [(k, FArr.obj v)] ∧ v.length = 2 * M + 1 := by
    have hk' : Dict.keys d = [k] := hk
    match d, hk' with
    | [(k', a)], hk' =>
      have e : k' = k := by simpa [Dict.keys] using hk'
      subst e
      have hn : a.isNative = false := hs k' a (by simp [FFormContainer.getPc, Dict.get, Dict.get?])
      have hl := hg.len (k', a) (by simp)
      cases a with
      | native v => cases hn
      | obj v => exact ⟨v, rfl, by simpa [FArr.objs] using hl⟩
  obtain ⟨v0, hv0⟩ : ∃ v0, v[0]? = some v0 := ⟨v[0], List.getElem?_eq_getElem (by omega)⟩
  set rhs : FArr → ℤ → Except Err Expr := fun a m => do let o ← pyGet a.objs (n2i m M); o.subs S pairs with hrhs
  set next : List Expr → Prog FArr := fun u => keyLoop M rhs [] (Dict.set [] k (.obj u)) with hnext
  set buf : List Expr := (List.replicate (2 * M + 1) (Expr.num 0)).set 0 (S.subs pairs v0) with hbuf
  set p1 : Prog FArr := compLoop M rhs k next ((freqs M).drop 1) buf with hp1
  have hval : ∀ (u : List Expr) (i : ℕ) (e : Expr), u.length = 2 * M + 1 → u[i]? = some e →
      rhs (.obj u) ((i : ℤ) - M) = .ok (S.subs pairs e) := by
    intro u i e hu he
    have hi := (List.getElem?_eq_some_iff.1 he).1
    obtain ⟨o, h1, h2⟩ := rhs_get (M := M) (v := .obj u) (by simpa [FArr.objs] using hu) (show i < 2 * M + 1 by omega)
    have ho : o = .sy e := by
      simp only [FArr.objs, List.getElem?_map, he, Option.map_some, Option.some.injEq] at h2
      exact h2.symm
    subst ho
    show (do let o ← pyGet (FArr.obj u).objs (n2i ((i : ℤ) - M) M); o.subs S pairs) = _
    rw [h1]
    rfl
  set w1 : World FArr FFormContainer.Op := ⟨⟨[[(k, .obj v)]], 0⟩, [⟨p1, []⟩, ⟨fprog S M (.scale s), []⟩]⟩ with hw1
  have e1 : (start [(k, FArr.obj v)] [[.subs pairs], [.scale s]]).run (fprog S M) [1, 0, 0, 0, 0, 0] = w1 := by
    have a1 : (start [(k, FArr.obj v)] [[.subs pairs], [.scale s]]).run (fprog S M) [1, 0, 0, 0] =
        ⟨⟨[[(k, .obj v)]], 0⟩, [⟨compLoop M rhs k next (freqs M) (List.replicate (2 * M + 1) (.num 0)), []⟩, ⟨fprog S M (.scale s), []⟩]⟩ := rfl
    have a2 : freqs M = (((0 : ℕ) : ℤ) - (M : ℤ)) :: (freqs M).drop 1 := by
      have := drop_freqs (M := M) (i := 0) (by omega)
      simpa using this
    rw [show [1, 0, 0, 0, 0, 0] = [1, 0, 0, 0] ++ [0, 0] from rfl, run_append, a1, a2]
    have a3 : ∀ (q : FArr → Prog FArr) (t : Thread FArr FFormContainer.Op),
        World.run (fprog S M) ⟨⟨[[(k, .obj v)]], 0⟩, [⟨.ref (fun r => .item r k q), []⟩, t]⟩ [0, 0] =
        ⟨⟨[[(k, .obj v)]], 0⟩, [⟨q (.obj v), []⟩, t]⟩ := by
      intro q t
      simp [World.run, World.step, Prog.exec, Dict.get, Dict.get?]
    rw [compLoop, a3, hval v 0 v0 hv hv0]
    have hset : pySet (List.replicate (2 * M + 1) (Expr.num 0)) (n2i (((0 : ℕ) : ℤ) - M) M) (S.subs pairs v0) = .ok buf := by
      rw [pySet_nonneg (by unfold n2i; omega) (by unfold n2i; simp)]
      congr 2
      unfold n2i
      omega
    have : (do let x ← (Except.ok (S.subs pairs v0) : Except Err Expr)
               pySet (List.replicate (2 * M + 1) (Expr.num 0)) (n2i (((0 : ℕ) : ℤ) - M) M) x) = .ok buf := hset
    rw [this]
  obtain ⟨n, hn, _⟩ := run_method (pr := fprog S M) 1 (fprog S M (.scale s)) w1 [] rfl
  set u : List Expr := (FArr.obj v).objs.map (fun o => S.mul s (o.sympify S)) with hu
  have hul : u.length = 2 * M + 1 := by simpa [hu, FArr.objs] using hv
  have hufin : (fprog S M (.scale s)).finish w1.mem = (none, ⟨[[(k, .obj u)]], 0⟩) := by
    simp [fprog, scaleLoop, Prog.finish, hw1, Dict.keys, Dict.get, Dict.get?, Dict.set, hu]
  set w2 : World FArr FFormContainer.Op := ⟨⟨[[(k, .obj u)]], 0⟩, [⟨p1, []⟩, ⟨.stop none, []⟩]⟩ with hw2
  have e2 : w1.run (fprog S M) (List.replicate n 1) = w2 := by
    rw [hn, hufin]
    rfl
  obtain ⟨n', hn', _⟩ := run_method (pr := fprog S M) 0 p1 w2 [] rfl
  have huget : ∀ (i : ℕ) (e : Expr), v[i]? = some e → u[i]? = some (S.mul s e) := by
    intro i e he
    simp [hu, FArr.objs, he, PyObj.sympify]
  set gfun : ℤ → Expr := fun m => if m = -(M : ℤ) then S.subs pairs v0 else S.subs pairs (S.mul s (v.getD (m + M).toNat v0)) with hgfun
  have hfold : ((freqs M).drop 1).foldlM (fun ans j => do let x ← rhs (.obj u) j; pySet ans (n2i j M) x) buf = .ok ((freqs M).map gfun) := by
    have hcongr : ((freqs M).drop 1).foldlM (fun ans j => do let x ← rhs (.obj u) j; pySet ans (n2i j M) x) buf =
        ((freqs M).drop 1).foldlM (fun ans j => do let x ← (Except.ok (gfun j) : Except Err Expr); pySet ans (n2i j M) x) buf := by
      refine foldlM_congr_mem (fun ans j hj => ?_)
      obtain ⟨i, hi, rfl⟩ := List.getElem_of_mem hj
      rw [List.length_drop, length_freqs] at hi
      have hj' : ((freqs M).drop 1)[i]'(by rw [List.length_drop, length_freqs]; exact hi) = ((i + 1 : ℕ) : ℤ) - M := by
        rw [List.getElem_drop]
        have := getElem?_freqs (M := M) (i := 1 + i) (by omega)
        rw [List.getElem?_eq_getElem (by rw [length_freqs]; omega)] at this
        rw [Option.some.inj this]
        push_cast
        ring
      rw [hj']
      have hvi : v[i + 1]? = some (v.getD (i + 1) v0) := by
        rw [List.getD_eq_getElem?_getD, List.getElem?_eq_getElem (by omega)]
        rfl
      rw [hval u (i + 1) _ hul (huget _ _ hvi)]
      have h1 : ((i + 1 : ℕ) : ℤ) - M ≠ -(M : ℤ) := by omega
      have h2 : (((i + 1 : ℕ) : ℤ) - M + M).toNat = i + 1 := by omega
      simp only [hgfun, h1, if_false, h2]
    rw [hcongr]
    have := fillLoop_ok (M := M) (rhs := fun j => (Except.ok (gfun j) : Except Err Expr)) (g := gfun) (2 * M) buf (by simp [hbuf]) (by omega)
      (fun _ _ => rfl) (fun i hi => by
        have : i = 0 := by omega
        subst this
        rw [hbuf, List.getElem?_set_self (by simp)]
        simp [hgfun])
    rw [show 2 * M + 1 - 2 * M = 1 by omega] at this
    exact this
  have hpfin : p1.finish w2.mem = (none, ⟨[[(k, .obj u)], [(k, .obj ((freqs M).map gfun))]], 1⟩) := by
    rw [hp1, finish_compLoop (a := .obj u) (by simp [hw2, Shared.dict, Dict.get, Dict.get?]), hfold]
    simp [hnext, keyLoop, Prog.finish, hw2, Dict.set]
  refine ⟨[1, 0, 0, 0, 0, 0] ++ (List.replicate n 1 ++ List.replicate n' 0), ?_⟩
  have hend : (start [(k, FArr.obj v)] [[.subs pairs], [.scale s]]).run (fprog S M)
      ([1, 0, 0, 0, 0, 0] ++ (List.replicate n 1 ++ List.replicate n' 0)) =
      ⟨⟨[[(k, .obj u)], [(k, .obj ((freqs M).map gfun))]], 1⟩, [⟨.stop none, []⟩, ⟨.stop none, []⟩]⟩ := by
    rw [run_append, e1, run_append, e2, hn', hpfin]
    rfl
  have hafter : fourierAfter S ⟨[(k, .obj v)], M⟩ [[.subs pairs], [.scale s]] ([1, 0, 0, 0, 0, 0] ++ (List.replicate n 1 ++ List.replicate n' 0)) =
      ⟨[(k, .obj ((freqs M).map gfun))], M⟩ := by
    unfold fourierAfter
    rw [hend]
    rfl
  have hcomp : ∀ m, -(M : ℤ) ≤ m → m ≤ M → FRepresents (⟨[(k, .obj ((freqs M).map gfun))], M⟩ : FFormContainer) k m (fun σ => (gfun m).eval σ) := by
    intro m h1 h2
    refine ⟨_, .sy (gfun m), by simp [FFormContainer.getPc, Dict.get, Dict.get?]; rfl, ⟨⟨h1, h2⟩, ?_⟩, fun σ => rfl⟩
    simp only [FArr.objs, FFormContainer.getM, List.getElem?_map]
    rw [getElem?_freqs (by omega)]
    have : (((m + M).toNat : ℕ) : ℤ) - M = m := by omega
    rw [Option.map_some, Option.map_some, this]
  have hread : ∀ m f, FRepresents (⟨[(k, .obj v)], M⟩ : FFormContainer) k m f → (-(M : ℤ) ≤ m ∧ m ≤ M) ∧
      ∃ e, v[(m + M).toNat]? = some e ∧ ∀ σ, e.eval σ = f σ := by
    rintro m f ⟨a, o, ha, ⟨hm, ho⟩, hf⟩
    have : a = .obj v := by
      simp only [FFormContainer.getPc, Dict.get, Dict.get?, if_true, Except.ok.injEq] at ha
      exact ha.symm
    subst this
    simp only [FArr.objs, FFormContainer.getM, List.getElem?_map, Option.map_eq_some_iff] at ho
    obtain ⟨e, he, rfl⟩ := ho
    exact ⟨hm, e, he, hf⟩
  rw [hafter]
  refine ⟨?_, fun f hf => ?_, fun m f hm hf => ?_⟩
  · rw [hend]
    intro t ht
    simp only [List.mem_cons, List.not_mem_nil, or_false, or_self] at ht
    subst ht
    exact ⟨⟨none, rfl⟩, rfl⟩
  · obtain ⟨hm, e, he, hev⟩ := hread _ f hf
    have h0 : (-(M : ℤ) + M).toNat = 0 := by omega
    simp only [FFormContainer.getM] at he hm ⊢
    rw [h0, hv0] at he
    obtain rfl := Option.some.inj he
    have := hcomp (-(M : ℤ)) hm.1 hm.2
    have hfun : (fun σ => (gfun (-(M : ℤ))).eval σ) = fun σ => f (assigned pairs σ) := by
      funext σ
      simp only [hgfun, if_true]
      rw [S.eval_subs, hev]
    rw [hfun] at this
    exact this
  · obtain ⟨hm', e, he, hev⟩ := hread _ f hf
    simp only [FFormContainer.getM] at hm
    have := hcomp m hm'.1 hm'.2
    have hfun : (fun σ => (gfun m).eval σ) = fun σ => s.eval (assigned pairs σ) * f (assigned pairs σ) := by
      funext σ
      have : m ≠ -(M : ℤ) := by omega
      simp only [hgfun, this, if_false]
      rw [S.eval_subs, S.eval_mul, List.getD_eq_getElem?_getD, he, Option.getD_some, hev]
    rw [hfun] at this
    exact this

/-! ### Concrete cases -/

/-- A Fourier formula for these theorems, with symbols in its components, and two threads that take turns on it. -/
example : ∃ c : FFormContainer, c.Reachable Sympy.plain ∧ Symbolic c ∧ c.getKeys = [kPP] ∧
    FRepresents c kPP (-(c.getM : ℤ)) (fun σ => σ symX) ∧ FRepresents c kPP 1 (fun σ => σ symY) ∧
    ∃ w, TakingTurns (fprog Sympy.plain c.M) (start c.fform [[.subs [(symX, .num 2)], .scale (.sym symX)], [.phaseShift (.num 1)]]) w
        [.phaseShift (.num 1), .subs [(symX, .num 2)], .scale (.sym symX)] ∧ AllDone w := by
  refine ⟨⟨[(kPP, .obj [.sym symX, .num 0, .sym symY])], 1⟩, ⟨exFForm, 1, _, [], rfl, rfl⟩, ?_, rfl,
    ⟨_, .sy (.sym symX), rfl, ⟨⟨by decide, by decide⟩, rfl⟩, fun σ => rfl⟩, ⟨_, .sy (.sym symY), rfl, ⟨⟨by decide, by decide⟩, rfl⟩, fun σ => rfl⟩, ?_⟩
  · intro k a h
    have := Dict.mem_of_get? (Dict.get_ok_iff.1 h)
    simp only [List.mem_singleton, Prod.mk.injEq] at this
    rw [this.2]
    rfl
  · generalize fprog Sympy.plain _ = pr
    set w0 : World FArr FFormContainer.Op := start [(kPP, .obj [.sym symX, .num 0, .sym symY])]
      [[.subs [(symX, .num 2)], .scale (.sym symX)], [.phaseShift (.num 1)]] with hw0
    have r1 : BetweenCalls w0 1 [.phaseShift (.num 1)] := ⟨none, rfl⟩
    obtain ⟨n1, f1⟩ := exists_turn (pr := pr) r1
    have r0 : BetweenCalls (w0.run pr (List.replicate n1 1)) 0 [.subs [(symX, .num 2)], .scale (.sym symX)] :=
      ⟨none, by rw [run_other (by decide)]; rfl⟩
    obtain ⟨n2, f2⟩ := exists_turn (pr := pr) r0
    obtain ⟨n3, f3⟩ := exists_turn (pr := pr) f2
    have g1 := TakingTurns.turn 1 n1 [_] [] (TakingTurns.refl w0) r1 f1
    have g2 := TakingTurns.turn 0 n2 [_] _ g1 r0 f2
    have g3 := TakingTurns.turn 0 n3 [_] _ g2 f2 f3
    refine ⟨_, g3, fun t ht => ?_⟩
    obtain ⟨j, hj, rfl⟩ := List.getElem_of_mem ht
    have hj2 : j < 2 := by
      rw [length_run, length_run, length_run] at hj
      exact hj
    have key : ∀ {j : ℕ} {w : World FArr FFormContainer.Op} (hj : j < w.threads.length), BetweenCalls w j [] →
        (∃ e, w.threads[j].now = .stop e) ∧ w.threads[j].later = [] := by
      rintro j w hj ⟨e, he⟩
      rw [List.getElem?_eq_getElem hj] at he
      rw [Option.some.inj he]
      exact ⟨⟨e, rfl⟩, rfl⟩
    refine key hj ?_
    have : j = 0 ∨ j = 1 := by omega
    rcases this with rfl | rfl
    · exact f3
    · obtain ⟨e, he⟩ := f1
      exact ⟨e, by rw [run_other (by decide), run_other (by decide)]; exact he⟩

/-- A formula for these theorems, and a substitution that changes it. -/
example : ∃ c : FormContainer, c.Reachable Sympy.plain ∧ ∃ f, Represents c kPP f ∧ (fun σ => f (assigned [(symX, .num 2)] σ)) ≠ f := by
  refine ⟨⟨[(kPP, .add [.sym symX, .mul [.num 2, .sym symY]])]⟩, ⟨exForm, _, [], rfl, rfl⟩,
    fun σ => (Expr.add [.sym symX, .mul [.num 2, .sym symY]]).eval σ, ⟨_, rfl, fun σ => rfl⟩, fun h => ?_⟩
  have := congrFun h (fun _ => 0)
  simp [assigned, assign, Expr.eval, Expr.evalSum, Expr.evalProd, symX, symY] at this

end Shgpy
