import Verif.Spec.ReadParallel
import Verif.Proofs.FitCrash
import Verif.Props.FitCrash

/-!
# Lemmas on loading while another process writes
-/

namespace Shgpy
open Spec

/-- A property of all libraries that are loaded or can be loaded is kept. -/
theorem dlopen_inv {P : Key → CFunc → Prop} {d d' : Disk} {path : Key} {c : Option Content} {f : CFunc}
    (hd : ∀ p g, Dict.get? d.loaded p = some g → P p g) (hc : ∀ g, '/' ∈ path → c = some (some g) → P path g)
    (h : d.dlopen path c = .ok (f, d')) : P path f ∧ ∀ p g, Dict.get? d'.loaded p = some g → P p g := by
  unfold Disk.dlopen at h
  split at h
  · cases h
  · rename_i hs
    split at h
    · rename_i g hg
      cases h
      exact ⟨hd _ _ hg, hd⟩
    · split at h
      · rename_i g
        cases h
        have h1 := hc f (by simpa using hs) rfl
        refine ⟨h1, fun p g hg => ?_⟩
        simp only [Dict.get?_set] at hg
        split at hg
        · rename_i hp
          cases hg
          exact hp ▸ h1
        · exact hd p g hg
      · cases h

theorem dlopen_error {d : Disk} {path : Key} {c : Option Content} {e : Err} (h : d.dlopen path c = .error e) : e = .osError := by
  unfold Disk.dlopen at h
  split at h
  · cases h; rfl
  · split at h
    · cases h
    · split at h
      · cases h
      · cases h; rfl

theorem loadFilesDuring_inv {P : Key → CFunc → Prop} {v : ℕ → Disk} {folder : Key}
    (hv : ∀ t name g, Dict.get? ((Dict.get? (v t).folders folder).getD []) name = some (some g) → P (folder ++ '/' :: name) g) :
    ∀ (names : List Key) (t : ℕ) (d : Disk) {fs : List CFunc} {t' : ℕ} {d' : Disk},
      (∀ p g, Dict.get? d.loaded p = some g → P p g) → loadFilesDuring v folder names t d = .ok (fs, t', d') →
      (∃ ps : List (Key × CFunc), ps.map Prod.fst = names ∧ ps.map Prod.snd = fs ∧ ∀ p ∈ ps, P (folder ++ '/' :: p.1) p.2) ∧
        ∀ p g, Dict.get? d'.loaded p = some g → P p g
  | [], t, d, fs, t', d', hd, h => by
      cases h
      exact ⟨⟨[], rfl, rfl, by simp⟩, hd⟩
  | name :: r, t, d, fs, t', d', hd, h => by
      unfold loadFilesDuring at h
      obtain ⟨⟨f, d1⟩, h1, h⟩ := bind_ok h
      obtain ⟨⟨fs1, t1, d2⟩, h2, h⟩ := bind_ok h
      cases h
      obtain ⟨h3, h4⟩ := dlopen_inv hd (fun g _ hg => hv _ _ _ hg) h1
      obtain ⟨⟨ps, h5, h6, h7⟩, h8⟩ := loadFilesDuring_inv hv r (t + 1) d1 h4 h2
      refine ⟨⟨(name, f) :: ps, by simp [h5], by simp [h6], fun p hp => ?_⟩, h8⟩
      rcases List.mem_cons.1 hp with rfl | hp
      · exact h3
      · exact h7 p hp

theorem loadFuncDictDuring_inv {P : Key → CFunc → Prop} {L : Listing} {v : ℕ → Disk} {folder : Key}
    (hv : ∀ t name g, Dict.get? ((Dict.get? (v t).folders folder).getD []) name = some (some g) → P (folder ++ '/' :: name) g)
    (hwf : ∀ t, Dict.WF ((Dict.get? (v t).folders folder).getD [])) {fform : FFormContainer} (hc : fform.Good) {d : Disk}
    (hd : ∀ p g, Dict.get? d.loaded p = some g → P p g) {fd : FuncDict} {t' : ℕ} {d' : Disk}
    (h : loadFuncDictDuring L v d fform folder = .ok (fd, t', d')) :
    ∃ ps : Key × ℤ × Part → List (Key × CFunc), fd = (funcKeys fform).map (fun key => (key, (ps key).map Prod.snd)) ∧
      ∀ key ∈ funcKeys fform, ((ps key).map Prod.fst).Nodup ∧ ∀ p ∈ ps key,
        globMatch (partName key.1 key.2.1 key.2.2 ++ ['*', '.', 's', 'o']) p.1 = true ∧ P (folder ++ '/' :: p.1) p.2 := by
  unfold loadFuncDictDuring at h
  have gen : ∀ (ks : List (Key × ℤ × Part)) (_ : ks.Nodup) (acc : FuncDict) (t : ℕ) (d0 : Disk) (_ : ∀ k ∈ ks, k ∉ Dict.keys acc)
      (_ : ∀ p g, Dict.get? d0.loaded p = some g → P p g) {fd : FuncDict} {t' : ℕ} {d' : Disk}
      (_ : ks.foldlM (fun (acc : FuncDict × ℕ × Disk) key => do
          let (fs, t, d) ← loadPartDuring L v folder key acc.2.1 acc.2.2
          return (Dict.set acc.1 key fs, t, d)) (acc, t, d0) = Except.ok (fd, t', d')),
      ∃ ps : Key × ℤ × Part → List (Key × CFunc), fd = acc ++ ks.map (fun key => (key, (ps key).map Prod.snd)) ∧
        ∀ key ∈ ks, ((ps key).map Prod.fst).Nodup ∧ ∀ p ∈ ps key,
          globMatch (partName key.1 key.2.1 key.2.2 ++ ['*', '.', 's', 'o']) p.1 = true ∧ P (folder ++ '/' :: p.1) p.2 := by
    intro ks
    induction ks with
    | nil => intro _ acc t d0 _ _ fd t' d' h; cases h; exact ⟨fun _ => [], by simp, by simp⟩
    | cons key ks ih =>
      intro hnd acc t d0 hacc hd0 fd t' d' h
      rw [List.foldlM_cons] at h
      obtain ⟨⟨acc1, t1, d1⟩, h1, h⟩ := bind_ok h
      obtain ⟨⟨fs, t2, d2⟩, h2, h1⟩ := bind_ok h1
      cases h1
      rw [List.nodup_cons] at hnd
      unfold loadPartDuring at h2
      obtain ⟨⟨ps, h3, h4, h5⟩, h6⟩ := loadFilesDuring_inv hv _ _ _ hd0 h2
      rw [Dict.set_of_notMem (hacc key (by simp))] at h
      obtain ⟨ps', h7, h8⟩ := ih hnd.2 (acc ++ [(key, fs)]) t1 d1 (by
        intro k hk hcon
        simp only [Dict.keys, List.map_append, List.map_cons, List.map_nil, List.mem_append, List.mem_singleton] at hcon
        rcases hcon with hcon | hcon
        · exact hacc k (by simp [hk]) hcon
        · exact hnd.1 (by rw [← hcon]; exact hk)) h6 h
      refine ⟨fun k => if k = key then ps else ps' k, ?_, fun k hk => ?_⟩
      · rw [h7]
        simp only [List.map_cons, if_true, List.append_assoc, List.singleton_append, h4]
        congr 2
        refine List.map_congr_left (fun k hk => ?_)
        rw [if_neg (fun h => hnd.1 (by rw [← h]; exact hk))]
      · dsimp only
        by_cases hkk : k = key
        · rw [if_pos hkk, hkk]
          refine ⟨?_, fun p hp => ⟨?_, h5 p hp⟩⟩
          · rw [h3]
            refine List.Nodup.sublist (List.Sublist.map _ List.filter_sublist) ?_
            exact ((L.perm _).map Prod.fst).nodup_iff.2 (hwf t)
          · have h9 : p.1 ∈ ps.map Prod.fst := List.mem_map_of_mem hp
            rw [h3] at h9
            obtain ⟨q, hq, h10⟩ := List.mem_map.1 h9
            rw [← h10]
            exact (List.mem_filter.1 hq).2
        · rw [if_neg hkk]
          exact h8 k ((List.mem_cons.1 hk).resolve_left hkk)
  simpa using gen (funcKeys fform) (funcKeys_nodup hc) [] 0 d (by simp [Dict.keys]) hd h

/-! ## The disk does not change -/

theorem loadFilesDuring_still {folder : Key} {content : Dict Key Content} (hwf : Dict.WF content) {v : ℕ → Disk}
    (hv : ∀ t, (Dict.get? (v t).folders folder).getD [] = content) :
    ∀ (l : List (Key × Content)) (_ : ∀ p ∈ l, p ∈ content) (acc : List CFunc) (t : ℕ) (d : Disk),
      l.foldlM (fun (acc : List CFunc × Disk) p => do
        let (f, d) ← acc.2.dlopen (folder ++ '/' :: p.1) (some p.2)
        return (acc.1 ++ [f], d)) (acc, d) =
      (loadFilesDuring v folder (l.map Prod.fst) t d).map (fun r => (acc ++ r.1, r.2.2))
  | [], _, acc, t, d => by simp [loadFilesDuring, Except.map]; rfl
  | p :: l, hl, acc, t, d => by
      rw [List.foldlM_cons, List.map_cons]
      unfold loadFilesDuring
      rw [hv, (Dict.get?_eq_some_iff hwf).2 (hl p (by simp))]
      cases h : d.dlopen (folder ++ '/' :: p.1) (some p.2) with
      | error e => rfl
      | ok r =>
        obtain ⟨f, d1⟩ := r
        simp only [ok_bind]
        show List.foldlM _ (acc ++ [f], d1) l = _
        rw [loadFilesDuring_still hwf hv l (fun q hq => hl q (by simp [hq])) (acc ++ [f]) (t + 1) d1]
        cases loadFilesDuring v folder (l.map Prod.fst) (t + 1) d1 with
        | error e => rfl
        | ok r => simp [Except.map, ok_bind, pure, Except.pure]

theorem loadFuncDictDuring_still (L : Listing) {folder : Key} {v : ℕ → Disk} {d : Disk}
    (hwf : Dict.WF ((Dict.get? d.folders folder).getD []))
    (hv : ∀ t, (Dict.get? (v t).folders folder).getD [] = (Dict.get? d.folders folder).getD []) (fform : FFormContainer) :
    loadFuncDict L d fform folder = (loadFuncDictDuring L v d fform folder).map (fun r => (r.1, r.2.2)) := by
  unfold loadFuncDict loadFuncDictDuring
  have gen : ∀ (ks : List (Key × ℤ × Part)) (acc : FuncDict) (t : ℕ) (d0 : Disk),
      ks.foldlM (fun (acc : FuncDict × Disk) key => do
        let (fs, d) ← loadPart L folder ((Dict.get? d.folders folder).getD []) key acc.2
        return (Dict.set acc.1 key fs, d)) (acc, d0) =
      (ks.foldlM (fun (acc : FuncDict × ℕ × Disk) key => do
        let (fs, t, d) ← loadPartDuring L v folder key acc.2.1 acc.2.2
        return (Dict.set acc.1 key fs, t, d)) (acc, t, d0)).map (fun (r : FuncDict × ℕ × Disk) => (r.1, r.2.2)) := by
    intro ks
    induction ks with
    | nil => intro acc t d0; rfl
    | cons key ks ih =>
      intro acc t d0
      rw [List.foldlM_cons, List.foldlM_cons]
      have h1 : loadPart L folder ((Dict.get? d.folders folder).getD []) key d0 =
          (loadPartDuring L v folder key t d0).map (fun r => (r.1, r.2.2)) := by
        unfold loadPart loadPartDuring
        rw [hv, loadFilesDuring_still hwf hv _ (fun p hp => (L.perm _).mem_iff.1 (List.mem_filter.1 hp).1) [] (t + 1) d0]
        simp
      dsimp only
      rw [h1]
      cases loadPartDuring L v folder key t d0 with
      | error e => rfl
      | ok r =>
        obtain ⟨fs, t1, d1⟩ := r
        simp only [Except.map, ok_bind]
        exact ih (Dict.set acc key fs) t1 d1
  exact gen _ _ _ _

theorem loadGradsDuring_still {v : ℕ → Disk} (pre : Key) {files : Dict Key Content} (hv : ∀ t, (v t).files = files) :
    ∀ (fuel i t : ℕ) (d : Disk), d.files = files →
      loadGradsDuring v pre fuel i t d = some (loadGrads pre fuel i d) ∨ ∀ j < fuel, (Dict.get? files (gradName pre (i + j))).isSome
  | 0, i, t, d, hd => Or.inr (by simp)
  | fuel + 1, i, t, d, hd => by
      unfold loadGradsDuring loadGrads loadFuncDuring loadFunc
      rw [hv, hv, hd]
      cases hg : Dict.get? files (gradName pre i) with
      | none => exact Or.inl rfl
      | some c =>
        simp only
        cases h : d.dlopen (gradName pre i) (some c) with
        | error e => exact Or.inl rfl
        | ok r =>
          obtain ⟨f, d1⟩ := r
          rcases loadGradsDuring_still pre hv fuel (i + 1) (t + 2) d1 ((dlopen_same h).1.trans hd) with h1 | h1
          · left
            simp only [h1, Option.map_some, ok_bind]
            cases loadGrads pre fuel (i + 1) d1 <;> rfl
          · right
            intro j hj
            cases j with
            | zero => rw [Nat.add_zero, hg]; rfl
            | succ j =>
              have := h1 j (by omega)
              rwa [show i + (j + 1) = i + 1 + j by omega]

/-! ## Gradients -/

theorem loadGradsDuring_inv {P : Key → CFunc → Prop} {v : ℕ → Disk} {pre : Key}
    (hv : ∀ t p g, '/' ∈ p → Dict.get? (v t).files p = some (some g) → P p g) :
    ∀ (fuel i t : ℕ) (d : Disk) {fs : List CFunc} {d' : Disk}, (∀ p g, Dict.get? d.loaded p = some g → P p g) →
      loadGradsDuring v pre fuel i t d = some (.ok (fs, d')) → ∀ j g, fs[j]? = some g → P (gradName pre (i + j)) g
  | 0, i, t, d, fs, d', hd, h => by cases h
  | fuel + 1, i, t, d, fs, d', hd, h => by
      unfold loadGradsDuring at h
      split at h
      · cases h
        intro j g hg
        simp at hg
      · split at h
        · cases h
        · rename_i f d1 h1
          obtain ⟨h2, h3⟩ := dlopen_inv hd (fun g hs hg => hv _ _ _ hs hg) h1
          cases h4 : loadGradsDuring v pre fuel (i + 1) (t + 2) d1 with
          | none => rw [h4] at h; cases h
          | some r =>
            rw [h4] at h
            cases r with
            | error e => cases h
            | ok q =>
              cases h
              obtain ⟨q1, q2⟩ := q
              intro j g hg
              cases j with
              | zero => cases hg; exact h2
              | succ j =>
                have := loadGradsDuring_inv hv fuel (i + 1) (t + 2) d1 h3 h4 j g hg
                rwa [show i + (j + 1) = i + 1 + j by omega]

/-! ## Folders have different names -/

theorem Dict.WF_erase {κ α : Type} [DecidableEq κ] {d : Dict κ α} (hd : Dict.WF d) (k : κ) : Dict.WF (Dict.erase d k) :=
  List.Nodup.sublist (List.Sublist.map _ List.filter_sublist) hd

theorem step_wf {d : Disk} (hd : ∀ p, Dict.WF ((Dict.get? d.folders p).getD [])) (s : Step) (p : Key) :
    Dict.WF ((Dict.get? (d.step s).folders p).getD []) := by
  cases s with
  | unlink q => exact hd p
  | write q c => exact hd p
  | unlinkIn q name =>
    simp only [Disk.step, Dict.get?_set]
    split
    · exact Dict.WF_erase (hd q) _
    · exact hd p
  | rmdir q =>
    simp only [Disk.step, Dict.get?_erase]
    split
    · exact Dict.WF_nil
    · exact hd p
  | mkdir q =>
    simp only [Disk.step, Dict.get?_set]
    split
    · exact Dict.WF_nil
    · exact hd p
  | writeIn q name c =>
    simp only [Disk.step, Dict.get?_set]
    split
    · exact Dict.WF_set (hd q) _ _
    · exact hd p

theorem after_wf : ∀ (l : List Step) {d : Disk}, (∀ p, Dict.WF ((Dict.get? d.folders p).getD [])) →
    ∀ p, Dict.WF ((Dict.get? (d.after l).folders p).getD [])
  | [], _, hd => hd
  | s :: l, _, hd => after_wf l (step_wf hd s)

end Shgpy
