import Verif.Lemmas.PetscTRhs
import Verif.Props.PetscRhs
import Verif.Props.TracerHR
import Mathlib.Tactic

/-!
C121: the right-hand side of the PETSc backend with sediment as assembled from arrays, with and without hydrostatic reconstruction, is
that of edges and cells treated one after the other (`tracerRhs` of `Model/TracerHR.lean`, on the mesh that the tables describe), as long
as the owned cells have the lowest local numbers; otherwise the source operators read outside the vector of material properties.
-/

namespace RDy

/-! ### Specification -/

/-- A cell's share of what is kept for output: depth, velocities (regularised), and concentrations; zero velocities and concentrations in dry cells. -/
def OutputOf (P : FlowParams) (nt : ℕ) (s : TCons) (out : ℕ → ℝ) : Prop :=
  out 0 = s.q.h ∧
  (P.tinyH ≤ s.q.h → out 1 = s.q.hu * s.q.h / (s.q.h ^ 2 + P.hAnuga ^ 2) ∧ out 2 = s.q.hv * s.q.h / (s.q.h ^ 2 + P.hAnuga ^ 2) ∧
    ∀ j < nt, out (3 + j) = s.hc j / s.q.h) ∧
  (s.q.h < P.tinyH → ∀ i < 3 + nt, 0 < i → out i = 0)

/-- The operators are created without an access outside a table. With hydrostatic reconstruction they hold, for every local cell, the
mean of the elevations of its corners – also if the mesh has a file with elevations of cells; without it, none. -/
theorem C121_create (wb : WellBalancing) (nt : ℕ) {T : Tables} {V : BedTables} {nc n ne : ℕ} (hT : T.Valid nc n ne) (hV : V.Valid nc)
    {Bs : List TBnd} (hB : ∀ B ∈ Bs, B.Valid ne nt) : ∃ M, createTPetsc wb nt T V Bs nc = some M ∧ M.Ready wb nt T V Bs nc ∧
      (wb ≠ .hr → M.zc = none) ∧
      (wb = .hr → ∃ zc, M.zc = some zc ∧ zc.len = nc ∧ ∀ c < nc, zc.val c = cornerMean V c) := by
  obtain ⟨b, ss, h1, h2, h3⟩ := C108_tracer_create hT hB
  unfold createTPetsc
  rw [h1, Option.bind_some, h2, Option.bind_some]
  by_cases hw : wb = .hr
  · obtain ⟨zc, e1, e2, e3⟩ := createZc_spec (V := { V with fromFile := false }) (nc := nc)
      ⟨hV.offsets, hV.count, hV.centroidZ, hV.dzdx, hV.dzdy, hV.width, hV.pos, hV.ids, hV.z⟩
    rw [if_pos hw, e1]
    refine ⟨_, rfl, ⟨h3, Or.inr ⟨hw, zc, rfl, e2, e3⟩⟩, fun h => absurd hw h, fun _ => ⟨zc, rfl, e2, fun c hc => ?_⟩⟩
    exact (e3 c hc).trans (cornerMean_eq { V with fromFile := false } c rfl)
  · rw [if_neg hw]
    exact ⟨_, rfl, ⟨h3, Or.inl ⟨hw, rfl⟩⟩, fun _ => rfl, fun h => absurd h hw⟩

/-- An evaluation with ready operators, whatever they keep from earlier ones, of a process whose owned cells have the lowest local
numbers: there is no access outside an array, the operators are ready for the next one, and if the edges and cells treated one after the
other have a right-hand side, that is the result. What is missing: processes with other numberings, `C121_undefined_violated`. -/
theorem C121_results_partial {sv : TSolver} {P : FlowParams} {wb : WellBalancing} {nt : ℕ} (hnt : 3 + nt ≤ maxFieldComponents) {T : Tables}
    {V : BedTables} {Bs : List TBnd} {nc n ne : ℕ} (hT : T.Valid nc n ne) (hV : V.Valid nc) (hB : ∀ B ∈ Bs, B.Valid ne nt)
    (hown : ∀ c < nc, T.owned.val c = true → c < n) (dt : ℝ) {u : Arr ℝ} (hu : u.len = (3 + nt) * nc) {M : TPetscMem}
    (hM : M.Ready wb nt T V Bs nc) {D : PetscVecs} (hD : D.FitsT nt n) :
    ∃ M' D' f, applyTPetsc sv P wb nt T V Bs nc n dt M D u = some (M', D', f) ∧ M'.Ready wb nt T V Bs nc ∧ D'.FitsT nt n ∧
      f.len = (3 + nt) * n ∧ ∀ g, tracerRhs (decide (wb = .hr)) sv P nt (tRhsMeshOf T V nc) (tbEdgesOf nt T Bs) dt (tSrcAt nt D.src) D.mat.val
        (tStateAt nt u) = some g → ∀ o, ∀ i < 3 + nt, f.val ((3 + nt) * o + i) = some (g o i) := by
  obtain ⟨M', D', f, h1, h2, h3, h4, h5, _⟩ := applyTPetsc_spec (sv := sv) (P := P) hnt hT hV hB hown dt hu hM hD
  exact ⟨M', D', f, h1, h2, h3, h4, fun g hg o i hi => (h5 o i hi).trans (tRhsEntry_eq hg o i hi)⟩

/-- A sequence of evaluations of such a process is defined, and what it gives depends on the steps, states, external sources and material
properties only: runs that start with operators and vectors of different contents get the same right-hand sides, NaNs included. -/
theorem C121_history {sv : TSolver} {P : FlowParams} {wb : WellBalancing} {nt : ℕ} (hnt : 3 + nt ≤ maxFieldComponents) {T : Tables}
    {V : BedTables} {Bs : List TBnd} {nc n ne : ℕ} (hT : T.Valid nc n ne) (hV : V.Valid nc) (hB : ∀ B ∈ Bs, B.Valid ne nt)
    (hown : ∀ c < nc, T.owned.val c = true → c < n) (evals : List (ℝ × Arr ℝ × Arr ℝ × Arr ℝ))
    (hu : ∀ p ∈ evals, p.2.1.len = (3 + nt) * nc ∧ p.2.2.1.len = (3 + nt) * n ∧ p.2.2.2.len = n) :
    ∀ (M₁ M₂ : TPetscMem) (D₁ D₂ : PetscVecs), M₁.Ready wb nt T V Bs nc → M₂.Ready wb nt T V Bs nc → D₁.pv.len = (3 + nt) * n →
      D₂.pv.len = (3 + nt) * n →
      ∃ M₁' M₂' D₁' D₂' fs, tPetscEvaluations sv P wb nt T V Bs nc n M₁ D₁ evals = some (M₁', D₁', fs) ∧
        tPetscEvaluations sv P wb nt T V Bs nc n M₂ D₂ evals = some (M₂', D₂', fs) ∧ fs.length = evals.length ∧
        M₁'.Ready wb nt T V Bs nc ∧ M₂'.Ready wb nt T V Bs nc := by
  induction evals with
  | nil => intro M₁ M₂ D₁ D₂ h1 h2 _ _; exact ⟨M₁, M₂, D₁, D₂, [], rfl, rfl, rfl, h1, h2⟩
  | cons p rest ih =>
    intro M₁ M₂ D₁ D₂ h1 h2 p1 p2
    obtain ⟨dt, u, src, mat⟩ := p
    obtain ⟨l1, l2, l3⟩ := hu (dt, u, src, mat) (by simp)
    obtain ⟨A, E, f, a1, a2, a3, a4, a5, _⟩ := applyTPetsc_spec (sv := sv) (P := P) hnt hT hV hB hown dt l1 h1
      (D := { D₁ with src := src, mat := mat }) ⟨l2, l3, p1⟩
    obtain ⟨B, G, f', b1, b2, b3, b4, b5, _⟩ := applyTPetsc_spec (sv := sv) (P := P) hnt hT hV hB hown dt l1 h2
      (D := { D₂ with src := src, mat := mat }) ⟨l2, l3, p2⟩
    have hff : f' = f := Arr.ext_flat (nd := 3 + nt) (by omega) b4 a4 fun o i hi => by rw [b5 o i hi, a5 o i hi]
    subst hff
    obtain ⟨M₁', M₂', D₁', D₂', fs, c1, c2, c3, c4, c5⟩ := ih (fun p hp => hu p (by simp [hp])) A B E G a2 b2 a3.pv b3.pv
    refine ⟨M₁', M₂', D₁', D₂', f' :: fs, ?_, ?_, by simp [c3], c4, c5⟩
    · show (applyTPetsc sv P wb nt T V Bs nc n dt M₁ { D₁ with src := src, mat := mat } u).bind _ = _
      rw [a1]
      show (tPetscEvaluations sv P wb nt T V Bs nc n A E rest).map _ = _
      rw [c1]
      rfl
    · show (applyTPetsc sv P wb nt T V Bs nc n dt M₂ { D₂ with src := src, mat := mat } u).bind _ = _
      rw [b1]
      show (tPetscEvaluations sv P wb nt T V Bs nc n B G rest).map _ = _
      rw [c2]
      rfl

theorem primEntry_output (P : FlowParams) (nt : ℕ) (s : TCons) (out : ℕ → ℝ) (h : ∀ i < 3 + nt, out i = primEntry P s i) : OutputOf P nt s out := by
  refine ⟨?_, fun hw => ⟨?_, ?_, fun j hj => ?_⟩, fun hd i hi hi0 => ?_⟩
  · rw [h 0 (by omega)]
    unfold primEntry velocities
    rw [if_pos (by omega)]
    split <;> rfl
  · rw [h 1 (by omega)]
    unfold primEntry velocities
    rw [if_pos (by omega), if_neg (by linarith)]
    show s.q.hu * s.q.h / (s.q.h * s.q.h + P.hAnuga * P.hAnuga) = _
    rw [sq, sq]
  · rw [h 2 (by omega)]
    unfold primEntry velocities
    rw [if_pos (by omega), if_neg (by linarith)]
    show s.q.hv * s.q.h / (s.q.h * s.q.h + P.hAnuga * P.hAnuga) = _
    rw [sq, sq]
  · rw [h (3 + j) (by omega)]
    unfold primEntry
    rw [if_neg (show ¬ 3 + j < 3 by omega), if_neg (by linarith), show 3 + j - 3 = j by omega]
  · rw [h i hi]
    unfold primEntry velocities
    by_cases h3 : i < 3
    · rw [if_pos h3, if_pos hd]
      interval_cases i
      · rfl
      · rfl
    · rw [if_neg h3, if_pos hd]

/-- What an evaluation without hydrostatic reconstruction leaves for output: depth, velocities and concentrations of every owned cell in the
given state, and the external sources that it used. -/
theorem C121_output {sv : TSolver} {P : FlowParams} {wb : WellBalancing} {nt : ℕ} (hnt : 3 + nt ≤ maxFieldComponents) {T : Tables}
    {V : BedTables} {Bs : List TBnd} {nc n ne : ℕ} (hT : T.Valid nc n ne) (hV : V.Valid nc) (hB : ∀ B ∈ Bs, B.Valid ne nt)
    (hown : ∀ c < nc, T.owned.val c = true → c < n) (dt : ℝ) {u : Arr ℝ} (hu : u.len = (3 + nt) * nc) {M M' : TPetscMem}
    (hM : M.Ready wb nt T V Bs nc) {D D' : PetscVecs} (hD : D.FitsT nt n) {f : Arr Num} (hinj : OwnedInj (tRhsMeshOf T V nc))
    (h : applyTPetsc sv P wb nt T V Bs nc n dt M D u = some (M', D', f)) : D'.srcInst = D.src ∧
      (wb ≠ .hr → ∀ c < nc, T.owned.val c = true → OutputOf P nt (tStateAt nt u c) fun i => D'.pv.val ((3 + nt) * T.l2o.val c + i)) := by
  obtain ⟨M1, D1, f1, h1, h2, h3, h4, h5, h6, h7, h8⟩ := applyTPetsc_spec (sv := sv) (P := P) hnt hT hV hB hown dt hu hM hD
  rw [h] at h1
  cases h1
  exact ⟨h6, fun hw c hc ho => primEntry_output P nt _ _ fun i hi => h8 hw hinj c hc ho i hi⟩

/-- With hydrostatic reconstruction the vector of primitive variables for output is never written in a run with sediment: it keeps what it
held, whatever the state (zeros from its creation). -/
theorem C121_output_violated {sv : TSolver} {P : FlowParams} {nt : ℕ} (hnt : 3 + nt ≤ maxFieldComponents) {T : Tables}
    {V : BedTables} {Bs : List TBnd} {nc n ne : ℕ} (hT : T.Valid nc n ne) (hV : V.Valid nc) (hB : ∀ B ∈ Bs, B.Valid ne nt)
    (hown : ∀ c < nc, T.owned.val c = true → c < n) (dt : ℝ) {u : Arr ℝ} (hu : u.len = (3 + nt) * nc) {M M' : TPetscMem}
    (hM : M.Ready .hr nt T V Bs nc) {D D' : PetscVecs} (hD : D.FitsT nt n) {f : Arr Num}
    (h : applyTPetsc sv P .hr nt T V Bs nc n dt M D u = some (M', D', f)) : D'.pv = D.pv := by
  obtain ⟨M1, D1, f1, h1, h2, h3, h4, h5, h6, h7, h8⟩ := applyTPetsc_spec (sv := sv) (P := P) hnt hT hV hB hown dt hu hM hD
  rw [h] at h1
  cases h1
  exact h7 rfl

/-- Still, muddy water over the means of the corners, in a domain without openings and without films thinner than `tiny_h`: with
hydrostatic reconstruction the water of every owned cell stays at rest, whatever the operators keep, for every roughness, all
concentrations and all sources of sediment. -/
theorem C121_rest {sv : TSolver} {P : FlowParams} {nt : ℕ} (hnt : 3 + nt ≤ maxFieldComponents) {T : Tables} {V : BedTables} {Bs : List TBnd}
    {nc n ne : ℕ} (hT : T.Valid nc n ne) (hV : V.Valid nc) (hB : ∀ B ∈ Bs, B.Valid ne nt)
    (hown : ∀ c < nc, T.owned.val c = true → c < n) {dt eta : ℝ} {u : Arr ℝ} (hu : u.len = (3 + nt) * nc) {M : TPetscMem}
    (hM : M.Ready .hr nt T V Bs nc) {D : PetscVecs} (hD : D.FitsT nt n) (hg : 0 < P.g) (ht : 0 < P.tinyH)
    (hx : 0 < P.xqThreshold) (hdt : 0 ≤ dt) (hinj : OwnedInj (tRhsMeshOf T V nc))
    (hv : EdgesValid ((tRhsMeshOf T V nc).withFlow (tbEdgesOf nt T Bs))) (hclosed : ClosedCells ((tRhsMeshOf T V nc).withFlow (tbEdgesOf nt T Bs)))
    (hf : NoFilm P eta (tRhsMeshOf T V nc)) (hb : RestBoundariesT eta (tRhsMeshOf T V nc) (tbEdgesOf nt T Bs))
    (hsrc : ∀ o, ∀ d < 3, D.src.val ((3 + nt) * o + d) = 0) (hstill : ∀ c < nc, (tStateAt nt u c).q = restState eta (cornerMean V c)) :
    ∃ M' D' f, applyTPetsc sv P .hr nt T V Bs nc n dt M D u = some (M', D', f) ∧
      ∀ c < nc, T.owned.val c = true → ∀ i < 3, f.val ((3 + nt) * T.l2o.val c + i) = some 0 := by
  obtain ⟨g, hg1, hg2⟩ := C83_rest_flow (sv := sv) (P := P) (n := nt) (pm := tRhsMeshOf T V nc) (bnd := tbEdgesOf nt T Bs) (dt := dt) D.mat.val
    (eta := eta) (src := tSrcAt nt D.src) (u := tStateAt nt u) hg ht hx hdt hinj hv hclosed hf hb hsrc
    (fun c hc => (hstill c hc).trans (congrArg (restState eta) (cornerMean_eq { V with fromFile := false } c rfl).symm))
  obtain ⟨M', D', f, h1, _, _, _, h5⟩ := C121_results_partial (sv := sv) (P := P) hnt hT hV hB hown dt hu hM hD
  refine ⟨M', D', f, h1, fun c hc ho i hi => ?_⟩
  rw [h5 g hg1 (T.l2o.val c) i (by omega)]
  exact congrArg some (hg2 c hc ho i hi)

theorem loopM_none {α : Type} {step : α → ℕ → Option α} {k : ℕ} (hk : ∀ s, step s k = none) : ∀ n, k < n → ∀ s, loopM step n s = none := by
  intro n
  induction n with
  | zero => intro h; omega
  | succ n ih =>
    intro h s
    show (loopM step n s).bind _ = none
    by_cases hkn : k = n
    · subst hkn
      cases hl : loopM step k s with
      | none => rfl
      | some s' => exact hk s'
    · rw [ih (by omega) s]
      rfl

theorem bind_bot {α β : Type} {x : Option α} {f : α → Option β} (h : ∀ a, f a = none) : x.bind f = none := by
  cases x with
  | none => rfl
  | some a => exact h a

/-- A process with a wet owned cell whose local number is not below the number of owned cells (a ghost cell comes before it): the source
operator reads Manning's coefficient of that cell outside the vector, with and without hydrostatic reconstruction, in every evaluation. -/
theorem C121_undefined_violated (sv : TSolver) (P : FlowParams) (wb : WellBalancing) {nt : ℕ} {T : Tables} {V : BedTables} (Bs : List TBnd)
    {nc n ne : ℕ} (hT : T.Valid nc n ne) (dt : ℝ) {u : Arr ℝ} (hu : u.len = (3 + nt) * nc) (M : TPetscMem) {D : PetscVecs}
    (hD : D.FitsT nt n) {c : ℕ} (hc : c < nc) (ho : T.owned.val c = true) (hn : n ≤ c) (hw : P.tinyH ≤ (tStateAt nt u c).q.h) :
    applyTPetsc sv P wb nt T V Bs nc n dt M D u = none := by
  unfold applyTPetsc
  refine bind_bot fun r => bind_bot fun q => ?_
  suffices applyTSourceB P (decide (wb ≠ .hr)) nt T V nc dt D.src D.mat q.2 u ⟨q.2, D.pv⟩ = none by rw [this]; rfl
  unfold applyTSourceB
  refine loopM_none (k := c) (fun s => ?_) nc hc _
  have hin : ∀ j < 3 + nt, (3 + nt) * c + j < u.len := fun j hj => by rw [hu]; exact flat_lt hc hj
  unfold tSourceStepB
  rw [Arr.get_some (show c < T.owned.len by rw [hT.owned]; exact hc)]
  show (if T.owned.val c = true then _ else _) = none
  rw [if_pos ho]
  refine bind_bot fun o => ?_
  rw [Arr.get_some (hin 0 (by omega))]
  show (u.get ((3 + nt) * c + 1)).bind _ = none
  rw [Arr.get_some (hin 1 (by omega))]
  show (u.get ((3 + nt) * c + 2)).bind _ = none
  rw [Arr.get_some (hin 2 (by omega)), Option.bind_some]
  refine bind_bot fun b => bind_bot fun fx => bind_bot fun fy => ?_
  suffices tWetB P nt dt D.src D.mat u c o (tStateAt nt u c).q fx fy b s.f = none from Eq.trans (congrArg (fun x => Option.bind x _) this) rfl
  unfold tWetB
  rw [if_pos hw]
  have : D.mat.get c = none := by
    unfold Arr.get
    rw [if_neg (by rw [hD.mat]; omega)]
  rw [this]
  rfl

/-! ### Examples -/

/-- the walls of the two squares of `exSqT`, with one sediment class -/
noncomputable def exSqTB : TBnd := ⟨⟨6, fun e => e + 1⟩, .reflecting, ⟨24, fun _ => 0⟩⟩

theorem exSqTB_valid : ∀ B ∈ [exSqTB], B.Valid 7 1 := by
  intro B hB
  rw [List.mem_singleton.mp hB]
  exact ⟨fun e he => by show e + 1 < 7; have : e < 6 := he; omega, rfl⟩

theorem exSqT_own : ∀ c < 2, exSqT.owned.val c = true → c < 2 := fun _ hc _ => hc

/-- level 1: depth 1 in the first cell with a concentration of 0.25, the second is dry -/
noncomputable def exSqTU : Arr ℝ := ⟨8, fun j => if j = 0 then 1 else if j = 3 then 0.25 else 0⟩

/-- a source of sediment in both cells, Manning's 0.03, and rubbish in the vectors for output -/
noncomputable def exSqTD : PetscVecs := ⟨⟨8, fun j => if j % 4 = 3 then 2 else 0⟩, ⟨2, fun _ => 0.03⟩, ⟨8, fun _ => 17⟩, ⟨8, fun _ => 5⟩⟩

theorem exSqTD_fits : exSqTD.FitsT 1 2 := ⟨rfl, rfl, rfl⟩

theorem exSqT_withFlow : ((tRhsMeshOf exSqT exSqV 2).withFlow (tbEdgesOf 1 exSqT [exSqTB])).internal = (exSquares 3).internal ∧
    ((tRhsMeshOf exSqT exSqV 2).withFlow (tbEdgesOf 1 exSqT [exSqTB])).boundary = (exSquares 3).boundary := by
  constructor
  · simp [tRhsMeshOf, PMesh.withFlow, meshOf, exSqT, exSquares, List.range_succ, Tables.leftOf, Tables.rightOf]
  · simp [tRhsMeshOf, PMesh.withFlow, meshOf, tbEdgesOf, TBEdge.flow, TBnd.cond, TBCond.flow, exSqT, exSqTB, exSquares, List.range_succ,
      Tables.leftOf]

theorem exSqT_inj : OwnedInj (tRhsMeshOf exSqT exSqV 2) := fun _ _ _ _ _ _ h => h

/-- the elevations that the operators hold: 0 and 3, although there is a file with the elevation 100 for both cells -/
theorem C121_beds_violated : ∃ M zc M' zc', createTPetsc .hr 1 exSqT { exSqV with fromFile := true } [exSqTB] 2 = some M ∧ M.zc = some zc ∧
    createPetsc ⟨.hr, .semiImplicit⟩ exSqT { exSqV with fromFile := true } [exSqB] 2 = some M' ∧ M'.zc = some zc' ∧
    zc.val 0 = 0 ∧ zc.val 1 = 3 ∧ zc'.val 0 = 100 ∧ zc'.val 1 = 100 := by
  have hV : ({ exSqV with fromFile := true } : BedTables).Valid 2 :=
    ⟨exSqV_valid.offsets, exSqV_valid.count, exSqV_valid.centroidZ, exSqV_valid.dzdx, exSqV_valid.dzdy, exSqV_valid.width, exSqV_valid.pos,
      exSqV_valid.ids, exSqV_valid.z⟩
  obtain ⟨M, h1, _, _, h4⟩ := C121_create .hr 1 exSqT_valid hV exSqTB_valid
  obtain ⟨zc, e1, _, e3⟩ := h4 rfl
  obtain ⟨M', h1', _, _, h4'⟩ := C112_create ⟨.hr, .semiImplicit⟩ exSqT_valid hV exSqB_valid
  obtain ⟨zc', e1', _, e3'⟩ := h4' rfl
  refine ⟨M, zc, M', zc', h1, e1, h1', e1', ?_, ?_, e3' 0 (by omega), e3' 1 (by omega)⟩
  · exact (e3 0 (by omega)).trans ((exSq_mean 0 (by omega)).trans (by simp))
  · exact (e3 1 (by omega)).trans ((exSq_mean 1 (by omega)).trans (by simp))

example (wb : WellBalancing) : ∃ M, createTPetsc wb 1 exSqT exSqV [exSqTB] 2 = some M ∧ M.Ready wb 1 exSqT exSqV [exSqTB] 2 := by
  obtain ⟨M, h1, h2, _⟩ := C121_create wb 1 exSqT_valid exSqV_valid exSqTB_valid
  exact ⟨M, h1, h2⟩

/-- the muddy lake stays at rest beside the island, with a source of sediment -/
example (sv : TSolver) : ∃ M M' D' f, createTPetsc .hr 1 exSqT exSqV [exSqTB] 2 = some M ∧
    applyTPetsc sv exParams .hr 1 exSqT exSqV [exSqTB] 2 2 0.5 M exSqTD exSqTU = some (M', D', f) ∧
    ∀ c < 2, ∀ i < 3, f.val (4 * c + i) = some 0 := by
  obtain ⟨M, h1, h2, _⟩ := C121_create .hr 1 exSqT_valid exSqV_valid exSqTB_valid
  have hz : ∀ c < 2, (tRhsMeshOf exSqT exSqV 2).zc c = if c = 0 then 0 else 3 := fun c hc => exSq_zc c hc
  obtain ⟨M', D', f, h3, h4⟩ := C121_rest (sv := sv) (P := exParams) (dt := 0.5) (eta := 1) (u := exSqTU) (by decide) exSqT_valid exSqV_valid
    exSqTB_valid exSqT_own rfl h2 exSqTD_fits (by norm_num [exParams]) (by norm_num [exParams]) (by norm_num [exParams]) (by norm_num) exSqT_inj
    { left := by intro e he; rw [exSqT_withFlow.1] at he; exact (exSquares_valid 3).left e he
      right := by intro e he; rw [exSqT_withFlow.1] at he; exact (exSquares_valid 3).right e he
      cell := by intro e he; rw [exSqT_withFlow.2] at he; exact (exSquares_valid 3).cell e he
      area := by intro c _; show (1 : ℝ) ≠ 0; norm_num }
    (by
      intro c hc ho
      rw [exSqT_withFlow.1, exSqT_withFlow.2]
      exact exSquares_closed 3 c hc ho)
    (by
      intro c hc
      rw [hz c hc]
      by_cases h : c = 0
      · right; rw [if_pos h]; norm_num [exParams]
      · left; rw [if_neg h]; norm_num)
    (by
      intro e he
      simp only [tbEdgesOf, List.flatMap_cons, List.flatMap_nil, List.append_nil, List.mem_map, List.mem_range] at he
      obtain ⟨k, hk, rfl⟩ := he
      have hk : k < 6 := hk
      refine ⟨?_, Or.inl rfl⟩
      show exSqT.leftOf (k + 1) < 2
      interval_cases k <;> decide)
    (by
      intro o d hd
      show (if (4 * o + d) % 4 = 3 then (2 : ℝ) else 0) = 0
      rw [if_neg (by omega)])
    (fun c hc => by
      rw [exSq_mean c hc]
      interval_cases c <;> norm_num [tStateAt, exSqTU, restState])
  exact ⟨M, M', D', f, h1, h3, fun c hc i hi => h4 c hc rfl i hi⟩

/-- the depth, velocity and concentration that are kept for output without hydrostatic reconstruction -/
example (sv : TSolver) : ∃ M M' D' f, createTPetsc .none 1 exSqT exSqV [exSqTB] 2 = some M ∧
    applyTPetsc sv exParams .none 1 exSqT exSqV [exSqTB] 2 2 0.5 M exSqTD exSqTU = some (M', D', f) ∧
    D'.pv.val 0 = 1 ∧ D'.pv.val 3 = 0.25 ∧ D'.pv.val 7 = 0 := by
  obtain ⟨M, h1, h2, _⟩ := C121_create .none 1 exSqT_valid exSqV_valid exSqTB_valid
  obtain ⟨M', D', f, h3, _⟩ := C121_results_partial (sv := sv) (P := exParams) (by decide) exSqT_valid exSqV_valid exSqTB_valid exSqT_own 0.5
    (u := exSqTU) rfl h2 exSqTD_fits
  obtain ⟨_, h5⟩ := C121_output (by decide) exSqT_valid exSqV_valid exSqTB_valid exSqT_own 0.5 (u := exSqTU) rfl h2 exSqTD_fits exSqT_inj h3
  obtain ⟨a1, a2, _⟩ := h5 (by decide) 0 (by omega) rfl
  obtain ⟨_, _, b3⟩ := h5 (by decide) 1 (by omega) rfl
  refine ⟨M, M', D', f, h1, h3, ?_, ?_, ?_⟩
  · refine Eq.trans a1 ?_; norm_num [tStateAt, exSqTU]
  · refine Eq.trans ((a2 ?_).2.2 0 (by omega)) ?_ <;> norm_num [tStateAt, exSqTU, exParams]
  · exact b3 (by norm_num [tStateAt, exSqTU, exParams]) 3 (by omega) (by omega)

/-- with hydrostatic reconstruction the rubbish stays -/
example {sv : TSolver} {M M' : TPetscMem} {D' : PetscVecs} {f : Arr Num} (hM : M.Ready .hr 1 exSqT exSqV [exSqTB] 2)
    (h : applyTPetsc sv exParams .hr 1 exSqT exSqV [exSqTB] 2 2 0.5 M exSqTD exSqTU = some (M', D', f)) : D'.pv.val 0 = 17 := by
  rw [C121_output_violated (by decide) exSqT_valid exSqV_valid exSqTB_valid exSqT_own 0.5 (u := exSqTU) rfl hM exSqTD_fits h]
  rfl

/-- two evaluations, with other sources the second time, of operators that were used before and of new ones -/
example {sv : TSolver} {M₁ M₂ : TPetscMem} (h1 : M₁.Ready .none 1 exSqT exSqV [exSqTB] 2) (h2 : M₂.Ready .none 1 exSqT exSqV [exSqTB] 2) :
    ∃ M₁' M₂' D₁' D₂' fs, tPetscEvaluations sv exParams .none 1 exSqT exSqV [exSqTB] 2 2 M₁ exSqTD
      [(1, exSqTU, exSqTD.src, exSqTD.mat), (0.5, exSqTU, ⟨8, fun j => j⟩, exSqTD.mat)] = some (M₁', D₁', fs) ∧
    tPetscEvaluations sv exParams .none 1 exSqT exSqV [exSqTB] 2 2 M₂ { exSqTD with pv := ⟨8, fun _ => -4⟩ }
      [(1, exSqTU, exSqTD.src, exSqTD.mat), (0.5, exSqTU, ⟨8, fun j => j⟩, exSqTD.mat)] = some (M₂', D₂', fs) ∧ fs.length = 2 := by
  obtain ⟨a, b, c, d, fs, e1, e2, e3, _⟩ := C121_history (sv := sv) (P := exParams) (nt := 1) (by decide) exSqT_valid exSqV_valid exSqTB_valid exSqT_own
    [(1, exSqTU, exSqTD.src, exSqTD.mat), (0.5, exSqTU, ⟨8, fun j => j⟩, exSqTD.mat)]
    (by
      intro p hp
      rcases List.mem_cons.mp hp with h | h
      · subst h; exact ⟨rfl, rfl, rfl⟩
      · rw [List.mem_singleton.mp h]; exact ⟨rfl, rfl, rfl⟩)
    M₁ M₂ exSqTD { exSqTD with pv := ⟨8, fun _ => -4⟩ } h1 h2 rfl rfl
  exact ⟨a, b, c, d, fs, e1, e2, e3⟩

/-- The two squares on a process that owns the second one only: the ghost cell comes first. -/
def exGhostT : Tables := { exSqT with owned := ⟨2, fun c => decide (c = 1)⟩, l2o := ⟨2, fun _ => 0⟩ }

theorem exGhostT_valid : exGhostT.Valid 2 1 7 where
  ids := exSqT_valid.ids
  cellIds := rfl
  elen := rfl
  sn := rfl
  cn := rfl
  area := rfl
  owned := rfl
  l2o := rfl
  left := exSqT_valid.left
  right := exSqT_valid.right
  range := by intro c h _; show 0 < 1; omega

/-- With depth 2 everywhere that process can evaluate the flow alone, but not the flow with sediment. -/
example (sv : TSolver) (wb : WellBalancing) (M : TPetscMem) :
    applyTPetsc sv exParams wb 1 exGhostT exSqV [exSqTB] 2 1 0.5 M ⟨⟨4, fun _ => 0⟩, ⟨1, fun _ => 0.03⟩, ⟨4, fun _ => 0⟩, ⟨4, fun _ => 0⟩⟩
        ⟨8, fun j => if j % 4 = 0 then 2 else 0⟩ = none ∧
      ∃ M₀ r, createPetsc ⟨wb, .semiImplicit⟩ exGhostT exSqV [exSqB] 2 = some M₀ ∧
        applyPetsc exParams ⟨wb, .semiImplicit⟩ exGhostT exSqV [exSqB] 2 1 0.5 M₀
          ⟨⟨3, fun _ => 0⟩, ⟨1, fun _ => 0.03⟩, ⟨3, fun _ => 0⟩, ⟨3, fun _ => 0⟩⟩ ⟨6, fun j => if j % 3 = 0 then 2 else 0⟩ = some r := by
  refine ⟨C121_undefined_violated sv exParams wb [exSqTB] exGhostT_valid 0.5 rfl M ⟨rfl, rfl, rfl⟩ (c := 1) (by omega) rfl (by omega) ?_, ?_⟩
  · norm_num [tStateAt, exParams]
  · obtain ⟨M₀, h1, h2, _⟩ := C112_create ⟨wb, .semiImplicit⟩ exGhostT_valid exSqV_valid exSqB_valid
    obtain ⟨M', D', f, h3, _⟩ := C112_results (P := exParams) exGhostT_valid exSqV_valid exSqB_valid 0.5
      (u := ⟨6, fun j => if j % 3 = 0 then 2 else 0⟩) rfl h2 (D := ⟨⟨3, fun _ => 0⟩, ⟨1, fun _ => 0.03⟩, ⟨3, fun _ => 0⟩, ⟨3, fun _ => 0⟩⟩) ⟨rfl, rfl, rfl⟩
    exact ⟨M₀, _, h1, h3⟩

end RDy
