import Verif.Proofs.FitModel
import Verif.Proofs.FitGrad

/-!
# Lemmas: saving and loading functions
-/

set_option linter.unusedSectionVars false
set_option linter.unusedSimpArgs false

namespace Shgpy
open Spec

/-! ## The dictionary of functions and the content of the folder -/

/-- The files of one component. -/
def blockOf (gs : Key × ℤ × Part → List CFunc) (key : Key × ℤ × Part) : Dict Key Content :=
  (gs key).zipIdx.map (fun g => (chunkName key.1 key.2.1 key.2.2 g.2, some g.1))

/-- The content of the folder. -/
def contentOf (keys : List (Key × ℤ × Part)) (gs : Key × ℤ × Part → List CFunc) : Dict Key Content :=
  keys.flatMap (blockOf gs)

theorem mem_funcKeys {fform : FFormContainer} {key : Key × ℤ × Part} :
    key ∈ funcKeys fform ↔ key.1 ∈ fform.getKeys ∧ -(fform.getM : ℤ) ≤ key.2.1 ∧ key.2.1 ≤ fform.getM := by
  obtain ⟨k, m, p⟩ := key
  unfold funcKeys
  simp only [List.mem_flatMap, List.mem_cons, List.not_mem_nil, or_false, Prod.mk.injEq]
  constructor
  · rintro ⟨k', hk, m', hm, h⟩
    rcases h with ⟨rfl, rfl, _⟩ | ⟨rfl, rfl, _⟩ <;> exact ⟨hk, mem_freqs.1 hm⟩
  · rintro ⟨hk, hm⟩
    refine ⟨k, hk, m, mem_freqs.2 hm, ?_⟩
    cases p
    · exact Or.inl ⟨rfl, rfl, rfl⟩
    · exact Or.inr ⟨rfl, rfl, rfl⟩

theorem funcKeys_nodup {fform : FFormContainer} (hc : fform.Good) : (funcKeys fform).Nodup := by
  unfold funcKeys
  rw [List.nodup_flatMap]
  refine ⟨fun k _ => ?_, ?_⟩
  · rw [List.nodup_flatMap]
    refine ⟨fun m _ => by simp, ?_⟩
    refine (freqs_nodup fform.getM).imp (fun {a b} hab => ?_)
    intro x hx hy
    simp only [List.mem_cons, List.not_mem_nil, or_false] at hx hy
    rcases hx with rfl | rfl <;> simp only [Prod.mk.injEq] at hy <;> rcases hy with h | h <;> exact hab h.2.1
  · have hnd : (fform.getKeys).Nodup := hc.wf
    refine hnd.imp (fun {a b} hab => ?_)
    intro x hx hy
    simp only [List.mem_flatMap, List.mem_cons, List.not_mem_nil, or_false] at hx hy
    obtain ⟨m, _, hx⟩ := hx
    obtain ⟨m', _, hy⟩ := hy
    rcases hx with rfl | rfl <;> simp only [Prod.mk.injEq] at hy <;> rcases hy with h | h <;> exact hab h.1

theorem mem_blockOf {gs : Key × ℤ × Part → List CFunc} {key : Key × ℤ × Part} {q : Key × Content} :
    q ∈ blockOf gs key ↔ ∃ i f, (gs key)[i]? = some f ∧ q = (chunkName key.1 key.2.1 key.2.2 i, some f) := by
  unfold blockOf
  rw [List.mem_map]
  constructor
  · rintro ⟨⟨f, i⟩, h1, rfl⟩
    exact ⟨i, f, List.mem_zipIdx_iff_getElem?.1 h1, rfl⟩
  · rintro ⟨i, f, h1, rfl⟩
    exact ⟨(f, i), List.mem_zipIdx_iff_getElem?.2 h1, rfl⟩

theorem contentOf_nodup {keys : List (Key × ℤ × Part)} (hk : keys.Nodup) (gs : Key × ℤ × Part → List CFunc) :
    (Dict.keys (contentOf keys gs)).Nodup := by
  unfold contentOf Dict.keys
  rw [List.map_flatMap, List.nodup_flatMap]
  refine ⟨fun key _ => ?_, ?_⟩
  · unfold blockOf
    rw [List.map_map]
    have h1 : ((gs key).zipIdx.map (Prod.fst ∘ fun g : CFunc × ℕ => (chunkName key.1 key.2.1 key.2.2 g.2, some g.1))) =
        ((gs key).zipIdx.map Prod.snd).map (chunkName key.1 key.2.1 key.2.2) := by
      rw [List.map_map]
      rfl
    rw [h1]
    refine List.Nodup.map (fun i j h => (chunkName_inj h).2.2.2) ?_
    rw [List.zipIdx_map_snd]
    exact List.nodup_range' 
  · refine hk.imp (fun {a b} hab => ?_)
    intro x hx hy
    obtain ⟨q, hq, rfl⟩ := List.mem_map.1 hx
    obtain ⟨q', hq', h⟩ := List.mem_map.1 hy
    obtain ⟨i, f, _, rfl⟩ := mem_blockOf.1 hq
    obtain ⟨i', f', _, rfl⟩ := mem_blockOf.1 hq'
    obtain ⟨h1, h2, h3, _⟩ := chunkName_inj h
    exact hab (Prod.ext h1.symm (Prod.ext h2.symm h3.symm))

theorem flatMap_single {α β : Type} [DecidableEq α] {l : List α} (hl : l.Nodup) {a : α} (ha : a ∈ l) (f : α → List β) :
    l.flatMap (fun b => if b = a then f b else []) = f a := by
  induction l with
  | nil => cases ha
  | cons b l ih =>
    rw [List.flatMap_cons]
    rw [List.nodup_cons] at hl
    rcases List.mem_cons.1 ha with rfl | ha'
    · rw [if_pos rfl]
      have : l.flatMap (fun b => if b = a then f b else []) = [] := by
        rw [List.flatMap_eq_nil_iff]
        intro b hb
        rw [if_neg (fun h => hl.1 (by rw [← h]; exact hb))]
      rw [this, List.append_nil]
    · rw [if_neg (fun h => hl.1 (by rw [h]; exact ha')), ih hl.2 ha']
      rfl

/-- The files that the pattern of a component finds. -/
theorem filter_content {keys : List (Key × ℤ × Part)} (hk : keys.Nodup) (gs : Key × ℤ × Part → List CFunc)
    (hplain : ∀ key ∈ keys, '*' ∉ key.1 ∧ '?' ∉ key.1 ∧ '_' ∉ key.1) {key : Key × ℤ × Part} (hkey : key ∈ keys) :
    (contentOf keys gs).filter (fun p => globMatch (partName key.1 key.2.1 key.2.2 ++ ['*', '.', 's', 'o']) p.1) =
      blockOf gs key := by
  unfold contentOf
  rw [List.filter_flatMap, ← flatMap_single hk hkey (blockOf gs)]
  rw [List.flatMap_def, List.flatMap_def]
  congr 1
  refine List.map_congr_left (fun key' hkey' => ?_)
  obtain ⟨h1, h2, h3⟩ := hplain key hkey
  have h4 := (hplain key' hkey').2.2
  split
  · rename_i heq
    subst heq
    rw [List.filter_eq_self]
    intro q hq
    obtain ⟨i, f, _, rfl⟩ := mem_blockOf.1 hq
    exact (glob_chunk ⟨h1, h2⟩ h3 h4).2 rfl
  · rename_i hne
    rw [List.filter_eq_nil_iff]
    intro q hq
    obtain ⟨i, f, _, rfl⟩ := mem_blockOf.1 hq
    intro h
    exact hne ((glob_chunk ⟨h1, h2⟩ h3 h4).1 h)

theorem fixedAutowrapModel_chunks (S : Sympy) (C : Compiler) {fform : FFormContainer} (hc : fform.Good)
    {arguments : Option (List Sym)} {l : List Sym} (hl : ArgumentOrder S fform arguments l)
    {F : Key → ℤ → Valuation → ℂ} (hF : FormulaIs fform F) {n : ℤ} (hn : 0 < n) :
    ∃ gs : Key × ℤ × Part → List CFunc,
      fixedAutowrapModel S C fform arguments n =
        .ok ((funcKeys fform).map (fun key => (key, gs key)), contentOf (funcKeys fform) gs) ∧
      (∀ key ∈ funcKeys fform, ∀ r : Sym → ℝ,
        ((gs key).map (fun g => g (l.map r))).sum = key.2.2.value (F key.1 key.2.1 (realVal r))) ∧
      ∀ key ∈ funcKeys fform, ∃ cs : List Expr, gs key = cs.map C.run ∧ ∀ c ∈ cs, 1 ≤ termCount c ∧ (termCount c : ℤ) ≤ n ∧
        ∀ s ∈ c.free, ∃ i, i < l.length ∧ s = xsElem i := by
  have h1 : ∀ key ∈ funcKeys fform, ∃ gs : List CFunc, modelFuncs S C fform arguments n key =
        .ok (gs.zipIdx.map (fun g => (chunkName key.1 key.2.1 key.2.2 g.2, g.1))) ∧
      (∀ r : Sym → ℝ, (gs.map (fun g => g (l.map r))).sum = key.2.2.value (F key.1 key.2.1 (realVal r))) ∧
      ∃ cs : List Expr, gs = cs.map C.run ∧ ∀ c ∈ cs, 1 ≤ termCount c ∧ (termCount c : ℤ) ≤ n ∧
        ∀ s ∈ c.free, ∃ i, i < l.length ∧ s = xsElem i := by
    rintro ⟨k, m, p⟩ hkey
    obtain ⟨h2, h3, h4⟩ := mem_funcKeys.1 hkey
    exact modelFuncs_ok S C hc hl (hF k h2 m h3 h4) p hn
  choose! gs hg1 hg2 hg3 using h1
  refine ⟨gs, ?_, hg2, hg3⟩
  unfold fixedAutowrapModel
  have h5 : (funcKeys fform).mapM (fun key => do
      let fs ← modelFuncs S C fform arguments n key
      return (key, fs)) = Except.ok ((funcKeys fform).map (fun key =>
        (key, (gs key).zipIdx.map (fun g => (chunkName key.1 key.2.1 key.2.2 g.2, g.1))))) := by
    refine mapM_ok' (fun key hkey => ?_)
    rw [hg1 key hkey]
    rfl
  rw [h5, ok_bind]
  have h6 : ((funcKeys fform).map (fun key =>
        (key, (gs key).zipIdx.map (fun g => (chunkName key.1 key.2.1 key.2.2 g.2, g.1))))).map
        (fun p => (p.1, p.2.map Prod.snd)) = (funcKeys fform).map (fun key => (key, gs key)) := by
    rw [List.map_map]
    refine List.map_congr_left (fun key _ => ?_)
    simp only [Function.comp_apply, List.map_map, Prod.mk.injEq, true_and]
    have : (Prod.snd ∘ fun g : CFunc × ℕ => (chunkName key.1 key.2.1 key.2.2 g.2, g.1)) = Prod.fst := rfl
    rw [this]
    simp
  have h7 : ((((funcKeys fform).map (fun key =>
        (key, (gs key).zipIdx.map (fun g => (chunkName key.1 key.2.1 key.2.2 g.2, g.1))))).flatMap Prod.snd).map
        (fun p => (p.1, some p.2))) = contentOf (funcKeys fform) gs := by
    unfold contentOf
    rw [List.flatMap_map, List.map_flatMap]
    rw [List.flatMap_def, List.flatMap_def]
    congr 1
    refine List.map_congr_left (fun key _ => ?_)
    unfold blockOf
    rw [List.map_map]
    rfl
  rw [h6, h7]
  have hnd := funcKeys_nodup hc
  rw [Dict.ofPairs_of_nodup (by
    rw [List.map_map]
    have : (Prod.fst ∘ fun key : Key × ℤ × Part => (key, gs key)) = id := rfl
    rw [this, List.map_id]
    exact hnd), Dict.ofPairs_of_nodup (contentOf_nodup hnd gs)]
  rfl

/-- Elements after the parameters are ignored. -/
theorem run_append (C : Compiler) (c : Expr) (x extra : List ℝ) (h : ∀ s ∈ c.free, ∃ i, i < x.length ∧ s = xsElem i) :
    C.run c (x ++ extra) = C.run c x := by
  rw [C.spec c x h, C.spec c (x ++ extra) (fun s hs => by
    obtain ⟨i, hi, e⟩ := h s hs
    exact ⟨i, by rw [List.length_append]; omega, e⟩)]
  congr 1
  refine Expr.eval_congr c (fun s hs => ?_)
  obtain ⟨i, hi, rfl⟩ := h s hs
  simp [xsVal, xsElem, List.getElem?_append_left hi]

theorem fixedAutowrapModel_ok (S : Sympy) (C : Compiler) {fform : FFormContainer} (hc : fform.Good)
    {arguments : Option (List Sym)} {l : List Sym} (hl : ArgumentOrder S fform arguments l)
    {F : Key → ℤ → Valuation → ℂ} (hF : FormulaIs fform F) {n : ℤ} (hn : 0 < n) :
    ∃ gs : Key × ℤ × Part → List CFunc,
      fixedAutowrapModel S C fform arguments n =
        .ok ((funcKeys fform).map (fun key => (key, gs key)), contentOf (funcKeys fform) gs) ∧
      ∀ key ∈ funcKeys fform, ∀ (r : Sym → ℝ) (extra : List ℝ),
        ((gs key).map (fun g => g (l.map r ++ extra))).sum = key.2.2.value (F key.1 key.2.1 (realVal r)) := by
  obtain ⟨gs, h1, h2, h3⟩ := fixedAutowrapModel_chunks S C hc hl hF hn
  refine ⟨gs, h1, fun key hkey r extra => ?_⟩
  obtain ⟨cs, h4, h5⟩ := h3 key hkey
  rw [← h2 key hkey r, h4, List.map_map, List.map_map]
  congr 1
  exact List.map_congr_left (fun c hc => run_append C c (l.map r) extra (by simpa using (h5 c hc).2.2))

theorem get_funcDict {keys : List (Key × ℤ × Part)} (hk : keys.Nodup) (gs : Key × ℤ × Part → List CFunc) {key : Key × ℤ × Part}
    (h : key ∈ keys) : Dict.get (keys.map (fun key => (key, gs key))) key = .ok (gs key) := by
  rw [Dict.get_ok_iff, Dict.get?_eq_some_iff]
  · exact List.mem_map.2 ⟨key, h, rfl⟩
  · unfold Dict.WF Dict.keys
    rw [List.map_map]
    have : (Prod.fst ∘ fun key : Key × ℤ × Part => (key, gs key)) = id := rfl
    rw [this, List.map_id]
    exact hk

theorem modelFunc_ok {fform : FFormContainer} (hc : fform.Good) {gs : Key × ℤ × Part → List CFunc} {l : List Sym}
    {F : Key → ℤ → Valuation → ℂ}
    (hg : ∀ key ∈ funcKeys fform, ∀ (r : Sym → ℝ) (extra : List ℝ),
      ((gs key).map (fun g => g (l.map r ++ extra))).sum = key.2.2.value (F key.1 key.2.1 (realVal r)))
    {k : Key} (hk : k ∈ fform.getKeys) {m : ℤ} (h1 : -(fform.getM : ℤ) ≤ m) (h2 : m ≤ fform.getM) (r : Sym → ℝ) (extra : List ℝ) :
    modelFunc ((funcKeys fform).map (fun key => (key, gs key))) (l.map r ++ extra) k m = .ok (F k m (realVal r)) := by
  have hr : (k, m, Part.real) ∈ funcKeys fform := mem_funcKeys.2 ⟨hk, h1, h2⟩
  have hi : (k, m, Part.imag) ∈ funcKeys fform := mem_funcKeys.2 ⟨hk, h1, h2⟩
  unfold modelFunc
  rw [get_funcDict (funcKeys_nodup hc) gs hr, ok_bind, get_funcDict (funcKeys_nodup hc) gs hi, ok_bind]
  show Except.ok _ = _
  congr 1
  have e1 : ∀ fs : List CFunc, (fs.map (fun v => ((v (l.map r ++ extra) : ℝ) : ℂ))).sum = (((fs.map (fun v => v (l.map r ++ extra))).sum : ℝ) : ℂ) := by
    intro fs
    induction fs with
    | nil => simp
    | cons f fs ih => simp [ih]
  have e2 : ∀ fs : List CFunc, (fs.map (fun v => Complex.I * ((v (l.map r ++ extra) : ℝ) : ℂ))).sum =
      Complex.I * (((fs.map (fun v => v (l.map r ++ extra))).sum : ℝ) : ℂ) := by
    intro fs
    induction fs with
    | nil => simp
    | cons f fs ih => simp [ih, mul_add]
  rw [e1, e2, hg _ hr, hg _ hi]
  simp only [Part.value]
  rw [mul_comm]
  exact Complex.re_add_im _

/-- Other combinations and frequencies are rejected. -/
theorem modelFunc_keyError {fform : FFormContainer} (gs : Key × ℤ × Part → List CFunc) (x : List ℝ) {k : Key} {m : ℤ}
    (h : ¬ (k ∈ fform.getKeys ∧ -(fform.getM : ℤ) ≤ m ∧ m ≤ fform.getM)) :
    modelFunc ((funcKeys fform).map (fun key => (key, gs key))) x k m = .error .keyError := by
  unfold modelFunc
  have : Dict.get ((funcKeys fform).map (fun key => (key, gs key))) (k, m, Part.real) = .error .keyError := by
    rw [Dict.get_error_iff]
    refine ⟨?_, rfl⟩
    unfold Dict.keys
    rw [List.map_map]
    have : (Prod.fst ∘ fun key : Key × ℤ × Part => (key, gs key)) = id := rfl
    rw [this, List.map_id]
    exact fun hmem => h (mem_funcKeys.1 hmem)
  rw [this]
  rfl

/-! ## Loading -/

/-- The libraries that the process has loaded from the folder are the ones that are there now. -/
def Fresh (d : Disk) (folder : Key) (content : Dict Key Content) : Prop :=
  ∀ name f, (name, some f) ∈ content → Dict.get? d.loaded (folder ++ '/' :: name) = none ∨
    Dict.get? d.loaded (folder ++ '/' :: name) = some f

theorem dlopen_ok {d : Disk} {path : Key} {f : CFunc} (hs : '/' ∈ path)
    (h : Dict.get? d.loaded path = none ∨ Dict.get? d.loaded path = some f) :
    ∃ d', d.dlopen path (some (some f)) = .ok (f, d') ∧ d'.files = d.files ∧ d'.folders = d.folders ∧
      Dict.get? d'.loaded path = some f ∧ ∀ p ≠ path, Dict.get? d'.loaded p = Dict.get? d.loaded p := by
  unfold Disk.dlopen
  rw [if_neg (by simpa using hs)]
  rcases h with h | h
  · rw [h]
    refine ⟨_, rfl, rfl, rfl, ?_, ?_⟩
    · simp [Dict.get?_set]
    · intro p hp
      simp only [Dict.get?_set]
      rw [if_neg (fun h => hp h.symm)]
  · rw [h]
    exact ⟨_, rfl, rfl, rfl, h, fun _ _ => rfl⟩

theorem loadFold_ok {folder : Key} {content : Dict Key Content} (hwf : Dict.WF content) :
    ∀ (ps : List (Key × CFunc)) (_ : ∀ p ∈ ps, (p.1, some p.2) ∈ content) (acc : List CFunc) (d : Disk)
      (_ : Fresh d folder content),
      ∃ d', (ps.map (fun p => (p.1, some p.2))).foldlM (fun (acc : List CFunc × Disk) (p : Key × Content) => do
          let (f, d) ← acc.2.dlopen (folder ++ '/' :: p.1) (some p.2)
          return (acc.1 ++ [f], d)) (acc, d) = Except.ok (acc ++ ps.map Prod.snd, d') ∧ Fresh d' folder content ∧
        d'.files = d.files ∧ d'.folders = d.folders
  | [], _, acc, d, hf => ⟨d, by simp; rfl, hf, rfl, rfl⟩
  | p :: ps, hps, acc, d, hf => by
      obtain ⟨d1, h1, h2, h3, h4, h5⟩ := dlopen_ok (path := folder ++ '/' :: p.1) (by simp) (hf p.1 p.2 (hps p (by simp)))
      have hf1 : Fresh d1 folder content := by
        intro name f hnf
        by_cases hn : name = p.1
        · subst hn
          have : some f = some p.2 := by
            have a1 := (Dict.get?_eq_some_iff hwf).2 hnf
            have a2 := (Dict.get?_eq_some_iff hwf).2 (hps p (by simp))
            rw [a1] at a2
            exact Option.some.inj a2
          rw [this]
          exact Or.inr h4
        · rw [h5 _ (fun h => hn (by simpa using h))]
          exact hf name f hnf
      obtain ⟨d', h6, h7, h8, h9⟩ := loadFold_ok hwf ps (fun q hq => hps q (by simp [hq])) (acc ++ [p.2]) d1 hf1
      refine ⟨d', ?_, h7, by rw [h8, h2], by rw [h9, h3]⟩
      rw [List.map_cons, List.foldlM_cons, h1, ok_bind]
      show List.foldlM _ (acc ++ [p.2], d1) _ = _
      rw [h6]
      simp

/-- The functions loaded for a component are the saved ones, in some order. -/
theorem loadPart_ok (L : Listing) {keys : List (Key × ℤ × Part)} (hk : keys.Nodup) (gs : Key × ℤ × Part → List CFunc)
    (hplain : ∀ key ∈ keys, '*' ∉ key.1 ∧ '?' ∉ key.1 ∧ '_' ∉ key.1) {key : Key × ℤ × Part} (hkey : key ∈ keys) (folder : Key)
    (d : Disk) (hf : Fresh d folder (contentOf keys gs)) :
    ∃ fs d', loadPart L folder (contentOf keys gs) key d = .ok (fs, d') ∧ fs.Perm (gs key) ∧
      Fresh d' folder (contentOf keys gs) ∧ d'.files = d.files ∧ d'.folders = d.folders := by
  have hperm : ((L.order (contentOf keys gs)).filter (fun p =>
      globMatch (partName key.1 key.2.1 key.2.2 ++ ['*', '.', 's', 'o']) p.1)).Perm (blockOf gs key) := by
    rw [← filter_content hk gs hplain hkey]
    exact (L.perm _).filter _
  have hblock : blockOf gs key = ((gs key).zipIdx.map (fun g => (chunkName key.1 key.2.1 key.2.2 g.2, g.1))).map
      (fun p => (p.1, some p.2)) := by
    unfold blockOf
    rw [List.map_map]
    rfl
  rw [hblock] at hperm
  generalize hfl : (L.order (contentOf keys gs)).filter (fun p =>
      globMatch (partName key.1 key.2.1 key.2.2 ++ ['*', '.', 's', 'o']) p.1) = fl at hperm
  have hex : ∃ ps : List (Key × CFunc), fl = ps.map (fun p => (p.1, some p.2)) ∧
      ps.Perm ((gs key).zipIdx.map (fun g => (chunkName key.1 key.2.1 key.2.2 g.2, g.1))) := by
    refine ⟨fl.map (fun p => (p.1, p.2.getD (fun _ => 0))), ?_, ?_⟩
    · rw [List.map_map]
      conv_lhs => rw [← List.map_id fl]
      refine List.map_congr_left (fun q hq => ?_)
      obtain ⟨q', _, rfl⟩ := List.mem_map.1 (hperm.subset hq)
      rfl
    · have := hperm.map (fun p : Key × Content => (p.1, p.2.getD (fun _ => 0)))
      rw [List.map_map] at this
      have e : (fun p : Key × Content => (p.1, p.2.getD (fun _ => 0))) ∘ (fun p : Key × CFunc => (p.1, some p.2)) = id := by
        funext p
        rfl
      rw [e, List.map_id] at this
      exact this
  obtain ⟨ps, rfl, hps⟩ := hex
  have hmem : ∀ p ∈ ps, (p.1, some p.2) ∈ contentOf keys gs := by
    intro p hp
    unfold contentOf
    refine List.mem_flatMap.2 ⟨key, hkey, ?_⟩
    rw [hblock]
    exact List.mem_map.2 ⟨p, hps.subset hp, rfl⟩
  obtain ⟨d', h1, h2, h3, h4⟩ := loadFold_ok (contentOf_nodup hk gs) ps hmem [] d hf
  refine ⟨ps.map Prod.snd, d', ?_, ?_, h2, h3, h4⟩
  · unfold loadPart
    rw [hfl, h1]
    simp
  · have := hps.map Prod.snd
    rw [List.map_map] at this
    have e : (Prod.snd ∘ fun g : CFunc × ℕ => (chunkName key.1 key.2.1 key.2.2 g.2, g.1)) = Prod.fst := rfl
    rw [e] at this
    simpa using this

theorem loadFuncDict_ok (L : Listing) {fform : FFormContainer} (hc : fform.Good) (gs : Key × ℤ × Part → List CFunc)
    (hplain : ∀ k ∈ fform.getKeys, '*' ∉ k ∧ '?' ∉ k ∧ '_' ∉ k) (folder : Key) (d : Disk)
    (hd : Dict.get? d.folders folder = some (contentOf (funcKeys fform) gs))
    (hf : Fresh d folder (contentOf (funcKeys fform) gs)) :
    ∃ (fs : Key × ℤ × Part → List CFunc) (d' : Disk), loadFuncDict L d fform folder = .ok ((funcKeys fform).map (fun key => (key, fs key)), d') ∧
      ∀ key ∈ funcKeys fform, (fs key).Perm (gs key) := by
  have hnd := funcKeys_nodup hc
  have hplain' : ∀ key ∈ funcKeys fform, '*' ∉ key.1 ∧ '?' ∉ key.1 ∧ '_' ∉ key.1 :=
    fun key hkey => hplain _ (mem_funcKeys.1 hkey).1
  unfold loadFuncDict
  rw [hd]
  simp only [Option.getD_some]
  generalize hct : contentOf (funcKeys fform) gs = ct at hf
  have gen : ∀ (ks : List (Key × ℤ × Part)) (_ : ks.Nodup) (_ : ∀ k ∈ ks, k ∈ funcKeys fform) (acc : FuncDict) (d0 : Disk)
      (_ : ∀ k ∈ ks, k ∉ Dict.keys acc) (_ : Fresh d0 folder ct),
      ∃ (fs : Key × ℤ × Part → List CFunc) (d' : Disk), ks.foldlM (fun (acc : FuncDict × Disk) key => do
          let (fs, d) ← loadPart L folder ct key acc.2
          return (Dict.set acc.1 key fs, d)) (acc, d0) = Except.ok (acc ++ ks.map (fun key => (key, fs key)), d') ∧
        ∀ key ∈ ks, (fs key).Perm (gs key) := by
    intro ks
    induction ks with
    | nil => intro _ _ acc d0 _ _; exact ⟨fun _ => [], d0, by simp; rfl, by simp⟩
    | cons key ks ih =>
      intro hnd' hmem acc d0 hacc hf0
      rw [← hct] at hf0
      obtain ⟨f, d1, h1, h2, h3, h4, h5⟩ := loadPart_ok L hnd gs hplain' (hmem key (by simp)) folder d0 hf0
      rw [hct] at h1 h3
      rw [List.nodup_cons] at hnd'
      obtain ⟨fs, d', h6, h7⟩ := ih hnd'.2 (fun k hk => hmem k (by simp [hk])) (acc ++ [(key, f)]) d1 (by
        intro k hk hcon
        simp only [Dict.keys, List.map_append, List.map_cons, List.map_nil, List.mem_append, List.mem_singleton] at hcon
        rcases hcon with hcon | hcon
        · exact hacc k (by simp [hk]) hcon
        · exact hnd'.1 (by rw [← hcon]; exact hk)) h3
      refine ⟨fun k => if k = key then f else fs k, d', ?_, ?_⟩
      · rw [List.foldlM_cons, h1, ok_bind]
        show List.foldlM _ (Dict.set acc key f, d1) ks = _
        rw [Dict.set_of_notMem (hacc key (by simp)), h6]
        simp only [List.map_cons, if_true, List.append_assoc, List.singleton_append]
        congr 4
        refine List.map_congr_left (fun k hk => ?_)
        rw [if_neg (fun h => hnd'.1 (by rw [← h]; exact hk))]
      · intro k hk
        simp only
        split
        · rename_i h
          rw [h]
          exact h2
        · rename_i h
          exact h7 k ((List.mem_cons.1 hk).resolve_left h)
  obtain ⟨fs, d', h1, h2⟩ := gen (funcKeys fform) hnd (fun _ h => h) [] d (by simp) hf
  exact ⟨fs, d', by simpa using h1, h2⟩

/-! ## Gradients -/

theorem save_get {d : Disk} (f : CFunc) (name p : Key) :
    Dict.get? (d.save f (some name)).files p = if name = p then some (some f) else Dict.get? d.files p := by
  unfold Disk.save
  exact Dict.get?_set _ _ _ _

theorem denergyFuncs_disk (C : Compiler) (pre : Key) : ∀ (es : List Expr) (i : ℕ) (d : Disk),
    (denergyFuncs C (some pre) es i d).2.loaded = d.loaded ∧
    (∀ p, (∀ j, i ≤ j → j < i + es.length → p ≠ gradName pre j) →
      Dict.get? (denergyFuncs C (some pre) es i d).2.files p = Dict.get? d.files p) ∧
    (∀ j e, es[j]? = some e → Dict.get? (denergyFuncs C (some pre) es i d).2.files (gradName pre (i + j)) = some (some (C.run e)))
  | [], i, d => ⟨rfl, fun _ _ => rfl, fun j e h => by simp at h⟩
  | e :: r, i, d => by
      obtain ⟨h1, h2, h3⟩ := denergyFuncs_disk C pre r (i + 1) (d.save (C.run e) (some (gradName pre i)))
      have hstep : (denergyFuncs C (some pre) (e :: r) i d).2 =
          (denergyFuncs C (some pre) r (i + 1) (d.save (C.run e) (some (gradName pre i)))).2 := rfl
      rw [hstep]
      refine ⟨by rw [h1]; rfl, ?_, ?_⟩
      · intro p hp
        rw [h2 p (fun j hj1 hj2 => hp j (by omega) (by simp only [List.length_cons]; omega)), save_get,
          if_neg (fun h => hp i le_rfl (by simp) h.symm)]
      · intro j e' hj
        cases j with
        | zero =>
          simp only [List.getElem?_cons_zero, Option.some.injEq] at hj
          subst hj
          rw [Nat.add_zero, h2 _ (fun j hj1 hj2 h => by have := gradName_inj h; omega), save_get,
            if_pos (by rw [Nat.add_zero])]
        | succ j =>
          simp only [List.getElem?_cons_succ] at hj
          have := h3 j e' hj
          rw [show i + 1 + j = i + (j + 1) by omega] at this
          exact this

/-- The functions in the files numbered `i`, `i + 1`, ... are loaded, up to the first number without a file. -/
theorem loadGrads_ok (pre : Key) (hs : '/' ∈ pre) : ∀ (fs : List CFunc) (fuel i : ℕ) (d : Disk), fs.length < fuel →
    (∀ j f, fs[j]? = some f → Dict.get? d.files (gradName pre (i + j)) = some (some f)) →
    Dict.get? d.files (gradName pre (i + fs.length)) = none →
    (∀ j, j < fs.length → Dict.get? d.loaded (gradName pre (i + j)) = none) →
    ∃ d', loadGrads pre fuel i d = .ok (fs, d')
  | [], fuel, i, d, hfuel, _, hend, _ => by
      obtain ⟨fuel, rfl⟩ : ∃ n, fuel = n + 1 := ⟨fuel - 1, by simp at hfuel; omega⟩
      unfold loadGrads
      simp only [List.length_nil, Nat.add_zero] at hend
      rw [hend]
      exact ⟨d, rfl⟩
  | f :: fs, fuel, i, d, hfuel, hfiles, hend, hfresh => by
      obtain ⟨fuel, rfl⟩ : ∃ n, fuel = n + 1 := ⟨fuel - 1, by simp only [List.length_cons] at hfuel; omega⟩
      have h0 := hfiles 0 f rfl
      have hl0 := hfresh 0 (by simp)
      rw [Nat.add_zero] at h0 hl0
      have hslash : '/' ∈ gradName pre i := by
        unfold gradName
        simp [hs]
      obtain ⟨d1, h1, h2, h3, h4, h5⟩ := dlopen_ok (d := d) (f := f) hslash (Or.inl hl0)
      obtain ⟨d', h6⟩ := loadGrads_ok pre hs fs fuel (i + 1) d1 (by simp only [List.length_cons] at hfuel; omega)
        (fun j g hj => by
          rw [h2, show i + 1 + j = i + (j + 1) by omega]
          exact hfiles (j + 1) g (by simpa using hj))
        (by
          rw [h2, show i + 1 + fs.length = i + (f :: fs).length by simp only [List.length_cons]; omega]
          exact hend)
        (fun j hj => by
          rw [h5 _ (fun h => by have := gradName_inj h; omega), show i + 1 + j = i + (j + 1) by omega]
          exact hfresh (j + 1) (by simp only [List.length_cons]; omega))
      refine ⟨d', ?_⟩
      unfold loadGrads loadFunc
      rw [h0]
      simp only
      rw [h1, ok_bind]
      simp only
      rw [h6]
      rfl

/-- Files with different names are finitely many: the loop of the model ends before its fuel does. -/
theorem files_length {files : Dict Key Content} {n : ℕ} {name : ℕ → Key} (hinj : ∀ i j, name i = name j → i = j)
    (h : ∀ i < n, (Dict.get? files (name i)).isSome) : n ≤ files.length := by
  have h1 : ((List.range n).map name).Nodup := List.Nodup.map (fun i j h => hinj i j h) List.nodup_range
  have h2 : ((List.range n).map name) ⊆ Dict.keys files := by
    intro p hp
    obtain ⟨i, hi, rfl⟩ := List.mem_map.1 hp
    obtain ⟨v, hv⟩ := Option.isSome_iff_exists.1 (h i (List.mem_range.1 hi))
    exact Dict.mem_keys_of_mem (Dict.mem_of_get? hv)
  have := (List.subperm_of_subset h1 h2).length_le
  simpa [Dict.keys] using this

end Shgpy
