import Verif.Proofs.FormThreads

/-!
# Lemmas about threads that use one container of formulas: calls that are not disturbed
-/

namespace Shgpy.FormThreads
open Spec

variable {α : Type}

theorem finish_rewriteLoop' (f : α → α) : ∀ (l l' pre : Dict Key α) (m : Shared α), m.cur < m.heap.length → Dict.WF (pre ++ l') →
    m.dict = pre ++ l' → Dict.keys l' = Dict.keys l → (rewriteLoop f l).finish m = (none, m.put (pre ++ l.mapVals f))
  | [], l', pre, m, hm, hwf, he, hk => by
    have : l' = [] := by simpa [Dict.keys] using hk
    subst this
    simp only [rewriteLoop, Dict.mapVals, List.map_nil, Prog.finish]
    rw [← he, put_self]
  | (k, v) :: l, [], pre, m, hm, hwf, he, hk => by simp [Dict.keys] at hk
  | (k, v) :: l, (k', v') :: l', pre, m, hm, hwf, he, hk => by
    simp only [Dict.keys, List.map_cons, List.cons.injEq] at hk
    obtain ⟨rfl, hk'⟩ := hk
    have hk : k' ∉ Dict.keys pre := by
      intro hk
      simp only [Dict.WF, Dict.keys, List.map_append, List.nodup_append] at hwf
      exact hwf.2.2 k' hk k' (by simp) rfl
    simp only [rewriteLoop, Prog.finish]
    change (rewriteLoop f l).finish (m.put (Dict.set m.dict k' (f v))) = _
    rw [he, Dict.set_append_of_notMem hk]
    have hwf' : Dict.WF ((pre ++ [(k', f v)]) ++ l') := by
      simp only [Dict.WF, Dict.keys, List.map_append, List.map_cons, List.append_assoc, List.cons_append, List.nil_append] at hwf ⊢
      exact hwf
    have hm' : (m.put (pre ++ (k', f v) :: l')).cur < (m.put (pre ++ (k', f v) :: l')).heap.length := by simpa [Shared.put] using hm
    have := finish_rewriteLoop' f l l' (pre ++ [(k', f v)]) (m.put (pre ++ (k', f v) :: l')) hm' hwf' (by rw [dict_put hm]; simp) hk'
    rw [this, put_put]
    simp only [Dict.mapVals, List.map_cons, List.append_assoc, List.cons_append, List.nil_append]

theorem finish_rewriteLoop (f : α → α) (l pre : Dict Key α) (m : Shared α) (hm : m.cur < m.heap.length) (hwf : Dict.WF (pre ++ l))
    (he : m.dict = pre ++ l) : (rewriteLoop f l).finish m = (none, m.put (pre ++ l.mapVals f)) :=
  finish_rewriteLoop' f l l pre m hm hwf he rfl

theorem foldlM_congr_mem {ι β : Type} {f g : β → ι → Except Err β} : ∀ {l : List ι} {b : β}, (∀ b, ∀ i ∈ l, f b i = g b i) →
    l.foldlM f b = l.foldlM g b
  | [], _, _ => rfl
  | i :: l, b, h => by
    rw [List.foldlM_cons, List.foldlM_cons, h b i (by simp)]
    congr 1
    funext b'
    exact foldlM_congr_mem (fun b j hj => h b j (by simp [hj]))

theorem finish_scaleLoop (f : α → α) : ∀ (l pre : Dict Key α) (m : Shared α), m.cur < m.heap.length → Dict.WF (pre ++ l) →
    m.dict = pre ++ l → (scaleLoop f m.cur (l.map Prod.fst)).finish m = (none, m.put (pre ++ l.mapVals f))
  | [], pre, m, hm, hwf, he => by
    simp only [scaleLoop, Dict.mapVals, List.map_nil, Prog.finish]
    rw [← he, put_self]
  | (k, v) :: l, pre, m, hm, hwf, he => by
    have hk : k ∉ Dict.keys pre := by
      intro hk
      simp only [Dict.WF, Dict.keys, List.map_append, List.nodup_append] at hwf
      exact hwf.2.2 k hk k (by simp) rfl
    have hget : Dict.get (m.heap.getD m.cur []) k = .ok v := by
      change Dict.get m.dict k = _
      rw [he]; exact Dict.get_append_of_notMem hk
    simp only [List.map_cons, scaleLoop, Prog.finish]
    rw [hget]
    change (scaleLoop f m.cur (l.map Prod.fst)).finish (m.put (Dict.set m.dict k (f v))) = _
    rw [he, Dict.set_append_of_notMem hk]
    have hwf' : Dict.WF ((pre ++ [(k, f v)]) ++ l) := by
      simp only [Dict.WF, Dict.keys, List.map_append, List.map_cons, List.append_assoc, List.cons_append, List.nil_append] at hwf ⊢
      exact hwf
    have hm' : (m.put (pre ++ (k, f v) :: l)).cur < (m.put (pre ++ (k, f v) :: l)).heap.length := by simpa [Shared.put] using hm
    have := finish_scaleLoop f l (pre ++ [(k, f v)]) (m.put (pre ++ (k, f v) :: l)) hm' hwf' (by rw [dict_put hm]; simp)
    change (scaleLoop f (m.put (pre ++ (k, f v) :: l)).cur (l.map Prod.fst)).finish _ = _
    rw [this, put_put]
    simp only [Dict.mapVals, List.map_cons, List.append_assoc, List.cons_append, List.nil_append]

/-! ### `FormContainer` -/

theorem finish_subsLoop (S : Sympy) (pairs : List (Sym × Expr)) : ∀ (l pre : Dict Key Expr) (m : Shared Expr), Dict.WF (pre ++ l) →
    (∀ it ∈ l, Dict.get m.dict it.1 = .ok it.2) →
    (subsLoop S pairs (l.map Prod.fst) pre).finish m = (none, ⟨m.heap ++ [pre ++ l.mapVals (S.subs pairs)], m.heap.length⟩)
  | [], pre, m, hwf, he => by
    simp [subsLoop, Dict.mapVals, Prog.finish]
  | (k, v) :: l, pre, m, hwf, he => by
    have hk : k ∉ Dict.keys pre := by
      intro hk
      simp only [Dict.WF, Dict.keys, List.map_append, List.nodup_append] at hwf
      exact hwf.2.2 k hk k (by simp) rfl
    have hget : Dict.get (m.heap.getD m.cur []) k = .ok v := he (k, v) (by simp)
    simp only [List.map_cons, subsLoop, Prog.finish]
    rw [hget]
    have hset : Dict.set pre k (S.subs pairs v) = pre ++ [(k, S.subs pairs v)] := Dict.set_of_notMem hk
    dsimp only
    rw [hset, finish_subsLoop S pairs l (pre ++ [(k, S.subs pairs v)]) m ?_ (fun it hit => he it (by simp [hit]))]
    · simp only [Dict.mapVals, List.map_cons, List.append_assoc, List.cons_append, List.nil_append]
    · simp only [Dict.WF, Dict.keys, List.map_append, List.map_cons, List.append_assoc, List.cons_append, List.nil_append] at hwf ⊢
      exact hwf

theorem wf_mapVals {d : Dict Key α} (h : Dict.WF d) (f : α → α) : Dict.WF (d.mapVals f) := by
  simp only [Dict.WF, Dict.keys_mapVals] at h ⊢
  exact h

theorem finish_prog (S : Sympy) (op : FormContainer.Op) (m : Shared Expr) (hm : Valid Dict.WF m) :
    (⟨((prog S op).finish m).2.dict⟩ : FormContainer) = (FormContainer.step S ⟨m.dict⟩ op).1 ∧ Valid Dict.WF ((prog S op).finish m).2 := by
  rw [FormContainer.step_eq S (c := ⟨m.dict⟩) hm.good]
  have hget : ∀ it ∈ m.dict, Dict.get m.dict it.1 = .ok it.2 := fun it hit => Dict.get_ok_iff.2 ((Dict.get?_eq_some_iff hm.good).2 hit)
  have hsubs : ∀ pairs, (subsLoop S pairs (m.dict.map Prod.fst) []).finish m =
      (none, ⟨m.heap ++ [m.dict.mapVals (S.subs pairs)], m.heap.length⟩) := fun pairs =>
    finish_subsLoop S pairs m.dict [] m (by simpa using hm.good) hget
  cases op with
  | subs pairs =>
    change (⟨((subsLoop S pairs (m.dict.map Prod.fst) []).finish m).2.dict⟩ : FormContainer) = _ ∧
      Valid _ ((subsLoop S pairs (m.dict.map Prod.fst) []).finish m).2
    rw [hsubs]
    refine ⟨?_, by simp, ?_⟩
    · dsimp only; rw [dict_new]; rfl
    · dsimp only; rw [dict_new]; exact wf_mapVals hm.good _
  | phaseShift a v =>
    change (⟨((subsLoop S [(v, S.add (.sym v) a)] (m.dict.map Prod.fst) []).finish m).2.dict⟩ : FormContainer) = _ ∧
      Valid _ ((subsLoop S [(v, S.add (.sym v) a)] (m.dict.map Prod.fst) []).finish m).2
    rw [hsubs]
    refine ⟨?_, by simp, ?_⟩
    · dsimp only; rw [dict_new]; rfl
    · dsimp only; rw [dict_new]; exact wf_mapVals hm.good _
  | scale s =>
    change (⟨((scaleLoop (S.mul s) m.cur (m.dict.map Prod.fst)).finish m).2.dict⟩ : FormContainer) = _ ∧
      Valid _ ((scaleLoop (S.mul s) m.cur (m.dict.map Prod.fst)).finish m).2
    rw [finish_scaleLoop (S.mul s) m.dict [] m hm.cur (by simpa using hm.good) (by simp), List.nil_append]
    refine ⟨?_, by simpa [Shared.put] using hm.cur, ?_⟩
    · dsimp only; rw [dict_put hm.cur]; rfl
    · dsimp only; rw [dict_put hm.cur]; exact wf_mapVals hm.good _
  | rewrite w =>
    change (⟨((rewriteLoop w.run m.dict).finish m).2.dict⟩ : FormContainer) = _ ∧ Valid _ ((rewriteLoop w.run m.dict).finish m).2
    rw [finish_rewriteLoop w.run m.dict [] m hm.cur (by simpa using hm.good) (by simp), List.nil_append]
    refine ⟨?_, by simpa [Shared.put] using hm.cur, ?_⟩
    · dsimp only; rw [dict_put hm.cur]; rfl
    · dsimp only; rw [dict_put hm.cur]; exact wf_mapVals hm.good _

/-! ### `fFormContainer` -/

theorem finish_compLoop {M : ℕ} {rhs : FArr → ℤ → Except Err Expr} {k : Key} {next : List Expr → Prog FArr} {m : Shared FArr} {a : FArr}
    (hget : Dict.get m.dict k = .ok a) : ∀ (ms : List ℤ) (buf : List Expr), (compLoop M rhs k next ms buf).finish m =
      match ms.foldlM (fun ans j => do let v ← rhs a j; pySet ans (n2i j M) v) buf with
      | .ok v => (next v).finish m
      | .error e => (some e, m)
  | [], buf => rfl
  | j :: ms, buf => by
    simp only [compLoop, Prog.finish, List.foldlM_cons]
    rw [show Dict.get (m.heap.getD m.cur []) k = .ok a from hget]
    dsimp only
    cases (do let x ← rhs a j; pySet buf (n2i j M) x) with
    | error e => rfl
    | ok buf' => exact finish_compLoop hget ms buf'

theorem finish_keyLoop {M : ℕ} {rhs : FArr → ℤ → Except Err Expr} {m : Shared FArr} :
    ∀ (ks : List Key) (d : Dict Key FArr), (∀ k ∈ ks, ∃ a, Dict.get m.dict k = .ok a) → (keyLoop M rhs ks d).finish m =
      match ks.foldlM (fun (d : Dict Key FArr) k => do
        let a ← Dict.get m.dict k
        let v ← fillFreqs M (Expr.num 0) (2 * M + 1) (rhs a)
        return Dict.set d k (.obj v)) d with
      | .ok d => (none, ⟨m.heap ++ [d], m.heap.length⟩)
      | .error e => (some e, m)
  | [], d, _ => rfl
  | k :: ks, d, h => by
    obtain ⟨a, ha⟩ := h k (by simp)
    simp only [keyLoop]
    rw [finish_compLoop ha, List.foldlM_cons, ha]
    change (match fillFreqs M (Expr.num 0) (2 * M + 1) (rhs a) with
      | .ok v => (keyLoop M rhs ks (Dict.set d k (.obj v))).finish m
      | .error e => (some e, m)) = (match (do
        let d ← (do
          let v ← fillFreqs M (Expr.num 0) (2 * M + 1) (rhs a)
          return Dict.set d k (FArr.obj v))
        ks.foldlM (fun (d : Dict Key FArr) k => do
          let a ← Dict.get m.dict k
          let v ← fillFreqs M (Expr.num 0) (2 * M + 1) (rhs a)
          return Dict.set d k (.obj v)) d) with
      | .ok d => (none, ⟨m.heap ++ [d], m.heap.length⟩)
      | .error e => (some e, m))
    cases fillFreqs M (Expr.num 0) (2 * M + 1) (rhs a) with
    | error e => rfl
    | ok v => exact finish_keyLoop ks _ (fun k' hk' => h k' (by simp [hk']))

theorem step_subs_eq (S : Sympy) (c : FFormContainer) (pairs : List (Sym × Expr)) : FFormContainer.step S c (.subs pairs) =
    match c.getKeys.foldlM (fun (d : Dict Key FArr) k => do
        let a ← Dict.get c.fform k
        let v ← FFormContainer.subsArr S c.M pairs a
        return Dict.set d k (.obj v)) [] with
      | .ok d => ({ c with fform := d }, none)
      | .error e => (c, some e) := by
  have : c.getKeys.foldlM (fun (d : Dict Key FArr) k => do
        let a ← Dict.get c.fform k
        let v ← FFormContainer.subsArr S c.M pairs a
        return Dict.set d k (.obj v)) [] = c.getItems.foldlM (fun (d : Dict Key FArr) kv => do
      let a ← Dict.get c.fform kv.1
      let v ← FFormContainer.subsArr S c.M pairs a
      return Dict.set d kv.1 (.obj v)) [] := by
    show List.foldlM _ _ (List.map Prod.fst c.fform) = _
    rw [List.foldlM_map]
    rfl
  rw [this]
  unfold FFormContainer.step
  simp only [FFormContainer.Op.body, FFormContainer.subsM, bind, ExceptT.bind, ExceptT.mk, ExceptT.bindCont, get, getThe, MonadStateOf.get, liftM,
    monadLift, MonadLift.monadLift, ExceptT.lift, StateT.get, StateT.bind, DataContainer.liftE, pure,
    Functor.map, StateT.map, Except.bind, Except.pure]
  generalize List.foldlM (m := Except Err) _ _ _ = x
  cases x <;> rfl

theorem step_shift_eq (S : Sympy) (c : FFormContainer) (a : Expr) : FFormContainer.step S c (.phaseShift a) =
    match c.getKeys.foldlM (fun (d : Dict Key FArr) k => do
        let v ← Dict.get c.fform k
        let v' ← FFormContainer.shiftFArr S c.M a v
        return Dict.set d k (.obj v'))
          (Dict.ofPairs (c.getKeys.map (fun k => (k, .obj (List.replicate (2 * c.M + 1) (.num 0)))))) with
      | .ok d => ({ c with fform := d }, none)
      | .error e => (c, some e) := by
  unfold FFormContainer.step
  simp only [FFormContainer.Op.body, FFormContainer.applyPhaseShiftM, bind, ExceptT.bind, ExceptT.mk, ExceptT.bindCont, get, getThe, MonadStateOf.get,
    liftM, monadLift, MonadLift.monadLift, ExceptT.lift, StateT.get, StateT.bind, DataContainer.liftE, pure,
    Functor.map, StateT.map, Except.bind, Except.pure]
  generalize List.foldlM (m := Except Err) _ _ _ = x
  cases x <;> rfl

theorem good_step (S : Sympy) {c : FFormContainer} (hc : c.Good) (op : FFormContainer.Op) :
    (FFormContainer.step S c op).1.Good ∧ (FFormContainer.step S c op).1.M = c.M := by
  cases op with
  | subs pairs =>
    by_cases h : ∃ it ∈ c.fform, it.2.isNative = true
    · rw [FFormContainer.step_subs_error S hc pairs h]
      exact ⟨hc, rfl⟩
    · have h' : ∀ it ∈ c.fform, it.2.isNative = false := by
        intro it hit
        by_contra hb
        exact h ⟨it, hit, by simpa using hb⟩
      rw [FFormContainer.step_subs_ok S hc pairs h']
      refine ⟨hc.mapVals (fun it hit => ?_), rfl⟩
      have := h' it hit
      cases hv : it.2 with
      | obj v => simp [FFormContainer.subsF, FArr.objs]
      | native v => simp [FFormContainer.subsF, FArr.objs]
  | phaseShift a =>
    rw [FFormContainer.step_shift S hc a]
    refine ⟨hc.mapVals (fun it hit => ?_), rfl⟩
    have := hc.len it hit
    simp [FFormContainer.shiftF, FArr.objs, length_freqs] at this ⊢
    omega
  | scale s =>
    rw [FFormContainer.step_scale]
    refine ⟨hc.mapVals (fun it hit => ?_), rfl⟩
    simp [FFormContainer.scaleF, FArr.objs]

theorem finish_fprog (S : Sympy) (M : ℕ) (op : FFormContainer.Op) (m : Shared FArr)
    (hm : Valid (fun d => FFormContainer.Good ⟨d, M⟩) m) :
    (⟨((fprog S M op).finish m).2.dict, M⟩ : FFormContainer) = (FFormContainer.step S ⟨m.dict, M⟩ op).1 ∧
      Valid (fun d => FFormContainer.Good ⟨d, M⟩) ((fprog S M op).finish m).2 := by
  have hgood := hm.good
  have hks : ∀ k ∈ Dict.keys m.dict, ∃ a, Dict.get m.dict k = .ok a := by
    intro k hk
    obtain ⟨v, hv⟩ := Dict.mem_keys.1 hk
    exact ⟨v, hgood.get hv⟩
  suffices h : (⟨((fprog S M op).finish m).2.dict, M⟩ : FFormContainer) = (FFormContainer.step S ⟨m.dict, M⟩ op).1 ∧
      ((fprog S M op).finish m).2.cur < ((fprog S M op).finish m).2.heap.length by
    refine ⟨h.1, h.2, ?_⟩
    show FFormContainer.Good ⟨((fprog S M op).finish m).2.dict, M⟩
    rw [h.1]
    exact (good_step S hgood op).1
  cases op with
  | subs pairs =>
    rw [step_subs_eq]
    change (⟨((keyLoop M (fun a j => do let o ← pyGet a.objs (n2i j M); o.subs S pairs) (Dict.keys m.dict) []).finish m).2.dict, M⟩ :
      FFormContainer) = _ ∧ ((keyLoop M (fun a j => do let o ← pyGet a.objs (n2i j M); o.subs S pairs) (Dict.keys m.dict) []).finish m).2.cur <
        ((keyLoop M (fun a j => do let o ← pyGet a.objs (n2i j M); o.subs S pairs) (Dict.keys m.dict) []).finish m).2.heap.length
    rw [finish_keyLoop _ _ hks]
    unfold FFormContainer.subsArr FFormContainer.getKeys
    dsimp only
    generalize List.foldlM (m := Except Err) _ _ _ = x
    cases x with
    | error e => exact ⟨rfl, hm.cur⟩
    | ok d => dsimp only; rw [dict_new]; exact ⟨rfl, by simp⟩
  | phaseShift a =>
    rw [step_shift_eq]
    change (⟨((keyLoop M (fun v j => do let o ← pyGet v.objs (n2i j M); return S.mul (o.sympify S) (FFormContainer.phaseFactor S a j))
        (Dict.keys m.dict) (Dict.ofPairs ((Dict.keys m.dict).map (fun k => (k, .obj (List.replicate (2 * M + 1) (.num 0))))))).finish m).2.dict, M⟩ :
      FFormContainer) = _ ∧ ((keyLoop M (fun v j => do let o ← pyGet v.objs (n2i j M); return S.mul (o.sympify S) (FFormContainer.phaseFactor S a j))
        (Dict.keys m.dict) (Dict.ofPairs ((Dict.keys m.dict).map (fun k => (k, .obj (List.replicate (2 * M + 1) (.num 0))))))).finish m).2.cur <
        ((keyLoop M (fun v j => do let o ← pyGet v.objs (n2i j M); return S.mul (o.sympify S) (FFormContainer.phaseFactor S a j))
        (Dict.keys m.dict) (Dict.ofPairs ((Dict.keys m.dict).map (fun k => (k, .obj (List.replicate (2 * M + 1) (.num 0))))))).finish m).2.heap.length
    rw [finish_keyLoop _ _ hks]
    unfold FFormContainer.shiftFArr FFormContainer.getKeys
    dsimp only
    generalize List.foldlM (m := Except Err) _ _ _ = x
    cases x with
    | error e => exact ⟨rfl, hm.cur⟩
    | ok d => dsimp only; rw [dict_new]; exact ⟨rfl, by simp⟩
  | scale s =>
    rw [FFormContainer.step_scale]
    change (⟨((scaleLoop (FFormContainer.scaleF S s) m.cur (m.dict.map Prod.fst)).finish m).2.dict, M⟩ : FFormContainer) = _ ∧
      ((scaleLoop (FFormContainer.scaleF S s) m.cur (m.dict.map Prod.fst)).finish m).2.cur <
        ((scaleLoop (FFormContainer.scaleF S s) m.cur (m.dict.map Prod.fst)).finish m).2.heap.length
    rw [finish_scaleLoop (FFormContainer.scaleF S s) m.dict [] m hm.cur (by simpa using hgood.wf) (by simp), List.nil_append]
    refine ⟨?_, by simpa [Shared.put] using hm.cur⟩
    dsimp only; rw [dict_put hm.cur]

end Shgpy.FormThreads
