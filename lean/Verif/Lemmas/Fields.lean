import Verif.Model.Fields
import Mathlib.Data.List.Induction
import Mathlib.Data.List.Nodup
import Mathlib.Tactic.Linarith

/-! Helper lemmas on loops that fill arrays. -/

namespace RDy

theorem fill_other {α : Type} (a : ℕ → ℝ) (cells : List α) (idx : α → ℕ) (val : α → ℝ) (k : ℕ)
    (h : ∀ c ∈ cells, idx c ≠ k) : fill a cells idx val k = a k := by
  unfold fill
  induction cells generalizing a with
  | nil => rfl
  | cons c cs ih =>
    rw [List.foldl_cons, ih _ fun d hd => h d (List.mem_cons_of_mem _ hd)]
    exact Function.update_of_ne (fun hc => h c List.mem_cons_self hc.symm) _ _

theorem fill_mem {α : Type} (a : ℕ → ℝ) (cells : List α) (idx : α → ℕ) (val : α → ℝ) (c : α)
    (hc : c ∈ cells) (hinj : ∀ d ∈ cells, idx d = idx c → val d = val c) :
    fill a cells idx val (idx c) = val c := by
  unfold fill
  induction cells using List.reverseRecOn with
  | nil => simp at hc
  | append_singleton cs d ih =>
    rw [List.foldl_append, List.foldl_cons, List.foldl_nil]
    by_cases hd : idx d = idx c
    · rw [← hd, Function.update_self]
      exact hinj d (by simp) hd
    · rw [Function.update_of_ne (Ne.symm hd)]
      rcases List.mem_append.mp hc with h1 | h1
      · exact ih h1 fun e he => hinj e (List.mem_append_left _ he)
      · rw [List.mem_singleton] at h1
        exact absurd (h1 ▸ rfl) hd

/-- A function `g` that writes to a region: afterwards `W` holds of the region, only indices in `K`
are changed, and `W` depends only on these. -/
structure RegionWrite (g : Region → (ℕ → ℝ) → (ℕ → ℝ)) (K : Region → ℕ → Prop)
    (W : Region → (ℕ → ℝ) → Prop) : Prop where
  post : ∀ r u, W r (g r u)
  frame : ∀ r u k, ¬ K r k → g r u k = u k

/-- `W r` only looks at indices in `K r`. -/
def Stable (K : Region → ℕ → Prop) (W : Region → (ℕ → ℝ) → Prop) : Prop :=
  ∀ r u u', (∀ k, K r k → u k = u' k) → W r u → W r u'

/-- The loop over regions for one condition, when all data are available: the regions that use the
condition are written, nothing else changes. -/
theorem regionLoop_spec {D : Type} (icName : Region → Option Str) (nm : Str)
    (onFile : D → Region → (ℕ → ℝ) → (ℕ → ℝ)) (onExpr : Option (Region → (ℕ → ℝ) → (ℕ → ℝ)))
    (K : Region → ℕ → Prop) (W : Region → (ℕ → ℝ) → Prop) (hst : Stable K W)
    (rs : List Region) (file : Option D) (u : ℕ → ℝ)
    (hic : ∀ r ∈ rs, icName r ≠ none)
    (hdis : rs.Pairwise fun r s => ∀ k, K r k → ¬ K s k)
    (hdata : (∃ d, file = some d ∧ RegionWrite (onFile d) K W ∧
          (rs.filter fun r => icName r = some nm).length ≤ 1) ∨
        (file = none ∧ ∃ g, onExpr = some g ∧ RegionWrite g K W) ∨
        (rs.filter fun r => icName r = some nm) = []) :
    ∃ u', regionLoop icName nm onFile onExpr rs u file = some u' ∧
      (∀ r ∈ rs, icName r = some nm → W r u') ∧
      (∀ k, (∀ r ∈ rs, icName r = some nm → ¬ K r k) → u' k = u k) := by
  induction rs generalizing u file with
  | nil => exact ⟨u, rfl, by simp, by simp⟩
  | cons r rs ih =>
    obtain ⟨d1, d2⟩ := List.pairwise_cons.mp hdis
    have hic' : ∀ r ∈ rs, icName r ≠ none := fun s hs => hic s (List.mem_cons_of_mem _ hs)
    obtain ⟨m, hm⟩ := Option.ne_none_iff_exists'.mp (hic r List.mem_cons_self)
    unfold regionLoop
    rw [hm]
    by_cases hmn : m = nm
    · subst hmn
      simp only [if_true]
      have hfil : ((r :: rs).filter fun r => decide (icName r = some m))
          = r :: rs.filter fun r => decide (icName r = some m) := by
        rw [List.filter_cons, if_pos (by simp [hm])]
      -- the step, given a function that writes this region
      have step : ∀ (g : Region → (ℕ → ℝ) → (ℕ → ℝ)), RegionWrite g K W →
          (∃ u', regionLoop icName m onFile onExpr rs (g r u) none = some u' ∧
            (∀ s ∈ rs, icName s = some m → W s u') ∧
            (∀ k, (∀ s ∈ rs, icName s = some m → ¬ K s k) → u' k = g r u k)) →
          ∃ u', regionLoop icName m onFile onExpr rs (g r u) none = some u' ∧
            (∀ s ∈ r :: rs, icName s = some m → W s u') ∧
            (∀ k, (∀ s ∈ r :: rs, icName s = some m → ¬ K s k) → u' k = u k) := by
        rintro g hg ⟨u', e1, e2, e3⟩
        refine ⟨u', e1, ?_, ?_⟩
        · intro s hs hsn
          rcases List.mem_cons.mp hs with rfl | hs
          · refine hst s (g s u) u' ?_ (hg.post s u)
            intro k hk
            rw [e3 k fun t ht _ hkt => d1 t ht k hk hkt]
          · exact e2 s hs hsn
        · intro k hk
          rw [e3 k fun s hs => hk s (List.mem_cons_of_mem _ hs)]
          exact hg.frame r u k (hk r List.mem_cons_self hm)
      rcases hdata with ⟨d, hd, hw, hl⟩ | ⟨hn, g, hg, hw⟩ | hnil
      · subst hd
        simp only
        apply step _ hw
        refine ih none (onFile d r u) hic' d2 (Or.inr (Or.inr ?_))
        rw [hfil, List.length_cons] at hl
        exact List.eq_nil_of_length_eq_zero (by omega)
      · subst hn
        subst hg
        simp only
        apply step _ hw
        exact ih none (g r u) hic' d2 (Or.inr (Or.inl ⟨rfl, g, rfl, hw⟩))
      · rw [hfil] at hnil; simp at hnil
    · simp only [hmn, if_false]
      have hne : ¬ icName r = some nm := by rw [hm]; intro h; exact hmn (Option.some.inj h)
      have hfil : ((r :: rs).filter fun r => decide (icName r = some nm))
          = rs.filter fun r => decide (icName r = some nm) := by
        rw [List.filter_cons, if_neg (by simp [hne])]
      rw [hfil] at hdata
      obtain ⟨u', e1, e2, e3⟩ := ih file u hic' d2 hdata
      refine ⟨u', e1, ?_, ?_⟩
      · intro s hs hsn
        rcases List.mem_cons.mp hs with rfl | hs
        · exact absurd hsn hne
        · exact e2 s hs hsn
      · intro k hk
        exact e3 k fun s hs => hk s (List.mem_cons_of_mem _ hs)

/-- A position in a block vector determines cell and component. -/
theorem block_inj {n a b i j : ℕ} (hi : i < n) (hj : j < n) (h : n * a + i = n * b + j) :
    a = b ∧ i = j := by
  have h1 : (n * a + i) / n = a := by
    rw [Nat.mul_add_div (by omega), Nat.div_eq_of_lt hi, Nat.add_zero]
  have h2 : (n * b + j) / n = b := by
    rw [Nat.mul_add_div (by omega), Nat.div_eq_of_lt hj, Nat.add_zero]
  have : a = b := by rw [← h1, ← h2, h]
  subst this
  exact ⟨rfl, by omega⟩

/-- A loop over conditions, one after the other. -/
def runAll {C : Type} (run : C → (ℕ → ℝ) → Option (ℕ → ℝ)) : List C → (ℕ → ℝ) → Option (ℕ → ℝ)
  | [], u => some u
  | c :: cs, u =>
    match run c u with
    | some u' => runAll run cs u'
    | none => none

/-- If each condition writes the regions that name it, a loop over conditions with different names
writes all regions. -/
theorem runAll_spec {C : Type} (name : C → Str) (icName : Region → Option Str)
    (regions : List Region) (run : C → (ℕ → ℝ) → Option (ℕ → ℝ)) (K : Region → ℕ → Prop)
    (W : C → Region → (ℕ → ℝ) → Prop) (hst : ∀ c, Stable K (W c))
    (hdis : regions.Pairwise fun r s => ∀ k, K r k → ¬ K s k)
    (conds : List C) (u : ℕ → ℝ) (hnd : (conds.map name).Nodup)
    (hrun : ∀ c ∈ conds, ∀ u, ∃ u', run c u = some u' ∧
      (∀ r ∈ regions, icName r = some (name c) → W c r u') ∧
      (∀ k, (∀ r ∈ regions, icName r = some (name c) → ¬ K r k) → u' k = u k)) :
    ∃ u', runAll run conds u = some u' ∧
      (∀ r ∈ regions, ∀ c ∈ conds, icName r = some (name c) → W c r u') ∧
      (∀ k, (∀ r ∈ regions, (∃ c ∈ conds, icName r = some (name c)) → ¬ K r k) → u' k = u k) := by
  induction conds generalizing u with
  | nil => exact ⟨u, rfl, by simp, by simp⟩
  | cons f fs ih =>
    obtain ⟨n1, n2⟩ := List.nodup_cons.mp hnd
    obtain ⟨u1, e1, e2, e3⟩ := hrun f List.mem_cons_self u
    obtain ⟨u2, g1, g2, g3⟩ := ih u1 n2 fun g hg => hrun g (List.mem_cons_of_mem _ hg)
    refine ⟨u2, ?_, ?_, ?_⟩
    · unfold runAll; rw [e1]; exact g1
    · intro r hr g hg hn
      rcases List.mem_cons.mp hg with rfl | hg
      · refine hst g r u1 u2 ?_ (e2 r hr hn)
        intro k hk
        refine (g3 k ?_).symm
        rintro s hs ⟨g', hg', hsn⟩ hks
        have hne : r ≠ s := by
          rintro rfl
          rw [hn] at hsn
          exact n1 (Option.some.inj hsn ▸ List.mem_map_of_mem hg')
        haveI : Std.Symm fun r s : Region => ∀ k, K r k → ¬ K s k :=
          ⟨fun a b h k hb ha => h k ha hb⟩
        exact hdis.forall hr hs hne k hk hks
      · exact g2 r hr g hg hn
    · intro k hk
      rw [g3 k fun r hr ⟨g, hg, hn⟩ => hk r hr ⟨g, List.mem_cons_of_mem _ hg, hn⟩]
      exact e3 k fun r hr hn => hk r hr ⟨f, List.mem_cons_self, hn⟩

end RDy
