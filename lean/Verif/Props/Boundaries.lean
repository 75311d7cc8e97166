import Verif.Model.Boundaries
import Mathlib.Data.List.Nodup
import Mathlib.Data.List.Count
import Mathlib.Data.List.Flatten
import Mathlib.Tactic.Linarith
import Mathlib.Tactic.Tauto

/-!
Properties C20 (boundary edges are partitioned among boundaries), C21 (fresh ID of the automatic
boundary) and C22 (boundary conditions).
-/

namespace RDy

/-! ### C21 -/

theorem assignLoop_fst (m : EdgeMesh) (B : List ℕ) (label : List FaceSet) :
    (assignLoop m B label).1 = (label.map FaceSet.id).foldl (fun u i => if u = i then u + 1 else u) 0
    := by
  unfold assignLoop
  generalize validBoundaryEdges m B = r
  generalize (0 : ℤ) = u
  induction label generalizing u r with
  | nil => rfl
  | cons f fs ih => simp only [List.foldl_cons, List.map_cons]; exact ih _ _

theorem pick_of_lt (L : List ℤ) (u : ℤ) (h : ∀ i ∈ L, u < i) :
    L.foldl (fun u i => if u = i then u + 1 else u) u = u := by
  induction L with
  | nil => rfl
  | cons a L ih =>
    have ha := h a List.mem_cons_self
    simp only [List.foldl_cons]
    rw [if_neg (by omega)]
    exact ih fun i hi => h i (List.mem_cons_of_mem _ hi)

theorem pick_fresh (L : List ℤ) (u : ℤ) (h : L.Pairwise (· < ·)) :
    u ≤ L.foldl (fun u i => if u = i then u + 1 else u) u ∧
    L.foldl (fun u i => if u = i then u + 1 else u) u ∉ L := by
  induction L generalizing u with
  | nil => simp
  | cons a L ih =>
    obtain ⟨h1, h2⟩ := List.pairwise_cons.mp h
    simp only [List.foldl_cons]
    by_cases hu : u = a
    · rw [if_pos hu]
      obtain ⟨i1, i2⟩ := ih (u + 1) h2
      refine ⟨by omega, ?_⟩
      rw [List.mem_cons, not_or]
      exact ⟨by omega, i2⟩
    · rw [if_neg hu]
      obtain ⟨i1, i2⟩ := ih u h2
      refine ⟨i1, ?_⟩
      rw [List.mem_cons, not_or]
      refine ⟨?_, i2⟩
      rcases lt_or_gt_of_ne hu with hlt | hgt
      · rw [pick_of_lt L u fun i hi => lt_trans hlt (h1 i hi)]
        exact hu
      · omega

/-- C21 (partial: the claim is for face-set IDs in any order): if the face sets come in increasing
order of their IDs, the ID chosen for the boundary of unassigned edges is different from all of
them. -/
theorem C21_fresh_id_partial (m : EdgeMesh) (B : List ℕ) (label : List FaceSet)
    (h : (label.map FaceSet.id).Pairwise (· < ·)) :
    (assignLoop m B label).1 ∉ label.map FaceSet.id := by
  rw [assignLoop_fst]
  exact (pick_fresh _ 0 h).2

/-- C21 is violated when the IDs come in another order: with face sets 1 and 0 (in that order) the
ID 1 is chosen. -/
theorem C21_fresh_id_violated :
    ∃ (m : EdgeMesh) (B : List ℕ) (label : List FaceSet), (label.map FaceSet.id).Nodup ∧
      (assignLoop m B label).1 ∈ label.map FaceSet.id :=
  ⟨⟨3, fun _ => (0, none), fun _ => true⟩, [0, 1, 2], [⟨1, [0]⟩, ⟨0, [1]⟩], by decide, by decide⟩

example : ([⟨0, [0]⟩, ⟨1, [1]⟩, ⟨4, [2]⟩].map FaceSet.id).Pairwise (· < ·) ∧
    (assignLoop ⟨4, fun _ => (0, none), fun _ => true⟩ [0, 1, 2, 3]
      [⟨0, [0]⟩, ⟨1, [1]⟩, ⟨4, [2]⟩]).1 = 2 := by decide

/-! ### C20 -/

theorem mem_isDiff {a b : List ℕ} {e : ℕ} : e ∈ isDiff a b ↔ e ∈ a ∧ e ∉ b := by
  simp [isDiff]

theorem mem_isInter {a b : List ℕ} {e : ℕ} : e ∈ isInter a b ↔ e ∈ a ∧ e ∈ b := by
  simp [isInter]

theorem mem_validBoundaryEdges {m : EdgeMesh} {B : List ℕ} {e : ℕ} (he : e < m.numEdges) :
    e ∈ validBoundaryEdges m B ↔ e ∈ B ∧ edgeValid m e = true := by
  unfold validBoundaryEdges
  have hinv : e ∈ invalidEdges m ↔ ¬ edgeValid m e = true := by
    simp [invalidEdges, he]
  split_ifs with h
  · rw [h] at hinv
    have : edgeValid m e = true := by
      by_contra hc; exact absurd (hinv.mpr hc) (by simp)
    tauto
  · rw [mem_isDiff, hinv]; tauto

theorem validBoundaryEdges_sub {m : EdgeMesh} {B : List ℕ} {e : ℕ}
    (h : e ∈ validBoundaryEdges m B) : e ∈ B := by
  unfold validBoundaryEdges at h
  split_ifs at h
  · exact h
  · exact (mem_isDiff.mp h).1

theorem validBoundaryEdges_nodup {m : EdgeMesh} {B : List ℕ} (h : B.Nodup) :
    (validBoundaryEdges m B).Nodup := by
  unfold validBoundaryEdges
  split_ifs
  · exact h
  · exact h.filter _

theorem assignLoop_snd (m : EdgeMesh) (B : List ℕ) (label : List FaceSet) :
    (∀ e, e ∈ (assignLoop m B label).2 ↔
      e ∈ validBoundaryEdges m B ∧ ∀ f ∈ label, e ∉ f.edges) ∧
    (B.Nodup → (assignLoop m B label).2.Nodup) := by
  have key : ∀ (fs : List FaceSet) (u : ℤ) (r : List ℕ), (∀ e ∈ r, e ∈ B) →
      (∀ e, e ∈ (fs.foldl (faceSetStep B) (u, r)).2 ↔ e ∈ r ∧ ∀ f ∈ fs, e ∉ f.edges) ∧
      (r.Nodup → (fs.foldl (faceSetStep B) (u, r)).2.Nodup) := by
    intro fs
    induction fs with
    | nil => intro u r _; simp
    | cons f fs ih =>
      intro u r hr
      simp only [List.foldl_cons, faceSetStep]
      obtain ⟨i1, i2⟩ := ih (if u = f.id then u + 1 else u) (isDiff r (isInter f.edges B))
        fun e he => hr e (mem_isDiff.mp he).1
      refine ⟨?_, fun hn => i2 (hn.filter _)⟩
      intro e
      rw [i1 e, mem_isDiff, mem_isInter]
      constructor
      · rintro ⟨⟨h1, h2⟩, h3⟩
        refine ⟨h1, ?_⟩
        intro g hg
        rcases List.mem_cons.mp hg with rfl | hg
        · intro hc; exact h2 ⟨hc, hr e h1⟩
        · exact h3 g hg
      · rintro ⟨h1, h2⟩
        exact ⟨⟨h1, fun hc => h2 f List.mem_cons_self hc.1⟩,
          fun g hg => h2 g (List.mem_cons_of_mem _ hg)⟩
  obtain ⟨k1, k2⟩ := key label 0 (validBoundaryEdges m B) fun e he => validBoundaryEdges_sub he
  exact ⟨k1, fun h => k2 (validBoundaryEdges_nodup h)⟩

theorem getStratum_eq {label : List FaceSet} (hn : (label.map FaceSet.id).Nodup) :
    ∀ f ∈ label, getStratum label f.id = f.edges := by
  induction label with
  | nil => simp
  | cons g gs ih =>
    intro f hf
    rw [List.map_cons, List.nodup_cons] at hn
    unfold getStratum
    rcases List.mem_cons.mp hf with rfl | hf
    · rw [if_pos rfl]
    · have : g.id ≠ f.id := by
        intro h; exact hn.1 (h ▸ List.mem_map_of_mem hf)
      rw [if_neg this]
      exact ih hn.2 f hf

theorem setStratum_fresh {label : List FaceSet} {id : ℤ} (es : List ℕ)
    (h : id ∉ label.map FaceSet.id) : setStratum label id es = label ++ [⟨id, es⟩] := by
  induction label with
  | nil => rfl
  | cons g gs ih =>
    rw [List.map_cons, List.mem_cons, not_or] at h
    unfold setStratum
    rw [if_neg (fun hc => h.1 hc.symm), ih h.2]; rfl

theorem fetch_edges {label : List FaceSet} (hn : (label.map FaceSet.id).Nodup) :
    (fetchBoundaries label (label.map FaceSet.id)).map (fun b => (b.id, b.edges))
      = label.map fun f => (f.id, f.edges) := by
  unfold fetchBoundaries
  rw [List.map_map]
  have h1 : ((label.map FaceSet.id).zipIdx).map
      ((fun b : Boundary => (b.id, b.edges)) ∘ fun p => ⟨p.2, p.1, getStratum label p.1⟩)
      = (((label.map FaceSet.id).zipIdx).map Prod.fst).map fun i => (i, getStratum label i) := by
    rw [List.map_map]; rfl
  rw [h1, List.zipIdx_map_fst, List.map_map]
  apply List.map_congr_left
  intro f hf
  simp only [Function.comp, getStratum_eq hn f hf]

/-- Specification: the boundaries found on this process, as (ID, edges) pairs, are the face sets in
order, followed, if that set is not empty, by the valid edges on the domain boundary that are in no
face set. -/
theorem boundaries_eq (m : EdgeMesh) (B : List ℕ) (label : List FaceSet) (inFile : ℤ → Bool)
    (cfg : List ℤ) (bs : List Boundary) (hn : (label.map FaceSet.id).Nodup)
    (hf : (assignLoop m B label).1 ∉ label.map FaceSet.id)
    (h : initBoundaries m B label inFile cfg = .ok bs) :
    bs.map (fun b => (b.id, b.edges)) = label.map (fun f => (f.id, f.edges)) ++
      (if (assignLoop m B label).2 = [] then []
       else [((assignLoop m B label).1, (assignLoop m B label).2)]) := by
  unfold initBoundaries at h
  by_cases h1 : label.length > 32
  · rw [if_pos h1] at h; cases h
  rw [if_neg h1] at h
  by_cases h2 : (cfg.any fun i => !inFile i) = true
  · rw [if_pos h2] at h; cases h
  rw [if_neg h2] at h
  generalize hg : assignLoop m B label = s at *
  obtain ⟨id, rest⟩ := s
  simp only at h hf ⊢
  by_cases hr : rest = []
  · rw [if_pos hr] at h ⊢
    split_ifs at h
    cases h
    rw [List.append_nil, fetch_edges hn]
  · rw [if_neg hr] at h ⊢
    cases h
    rw [setStratum_fresh rest hf]
    have hn2 : ((label ++ [(⟨id, rest⟩ : FaceSet)]).map FaceSet.id).Nodup := by
      rw [List.map_append, List.nodup_append]
      refine ⟨hn, by simp, ?_⟩
      intro a ha b hb
      simp only [List.map_cons, List.map_nil, List.mem_singleton] at hb
      intro hab; exact hf (hb ▸ hab ▸ ha)
    have := fetch_edges hn2
    rw [List.map_append] at this
    simp only [List.map_cons, List.map_nil] at this
    rw [this]; simp

/-- Specification: one of the cells of the edge (it has one or two) is owned by this process. -/
def EdgeMesh.HasOwnedCell (m : EdgeMesh) (e : ℕ) : Prop :=
  m.own (m.cells e).1 = true ∨ ∃ c, (m.cells e).2 = some c ∧ m.own c = true

theorem edgeValid_iff (m : EdgeMesh) (e : ℕ) : edgeValid m e = true ↔ m.HasOwnedCell e := by
  unfold edgeValid EdgeMesh.HasOwnedCell
  cases (m.cells e).2 <;> simp

/-- C20 (partial: needs the chosen ID to be fresh, see C21): if the face sets are disjoint, each edge
of the domain boundary that has an owned cell is in exactly one boundary, exactly once. -/
theorem C20_partition_partial (m : EdgeMesh) (B : List ℕ) (label : List FaceSet)
    (inFile : ℤ → Bool) (cfg : List ℤ) (bs : List Boundary)
    (hids : (label.map FaceSet.id).Nodup)
    (hfresh : (assignLoop m B label).1 ∉ label.map FaceSet.id)
    (hB : B.Nodup) (hnd : ∀ f ∈ label, f.edges.Nodup)
    (hdisj : label.Pairwise fun f g => ∀ e, e ∈ f.edges → e ∉ g.edges)
    (h : initBoundaries m B label inFile cfg = .ok bs) :
    (∀ e ∈ B, e < m.numEdges → m.HasOwnedCell e → (bs.flatMap Boundary.edges).count e = 1) ∧
    (bs.flatMap Boundary.edges).Nodup := by
  obtain ⟨r1, r2⟩ := assignLoop_snd m B label
  have heq := boundaries_eq m B label inFile cfg bs hids hfresh h
  have hfl : bs.flatMap Boundary.edges
      = label.flatMap FaceSet.edges ++ (assignLoop m B label).2 := by
    have h1 : bs.flatMap Boundary.edges
        = (bs.map fun b => (b.id, b.edges)).flatMap Prod.snd := by
      rw [List.flatMap_map]
    rw [h1, heq, List.flatMap_append, List.flatMap_map]
    congr 1
    split_ifs with h0
    · rw [h0]; rfl
    · simp
  have hnd1 : (label.flatMap FaceSet.edges).Nodup := by
    rw [List.nodup_flatMap]
    exact ⟨hnd, hdisj.imp fun {f g} hfg => by
      simp only [Function.onFun, List.disjoint_left]; exact fun {e} => hfg e⟩
  have hnd2 : (bs.flatMap Boundary.edges).Nodup := by
    rw [hfl, List.nodup_append]
    refine ⟨hnd1, r2 hB, ?_⟩
    intro a ha b hb hab
    subst hab
    obtain ⟨f, hf, he⟩ := List.mem_flatMap.mp ha
    exact ((r1 a).mp hb).2 f hf he
  refine ⟨?_, hnd2⟩
  intro e he hlt hv
  apply List.count_eq_one_of_mem hnd2
  rw [hfl, List.mem_append]
  by_cases hc : ∃ f ∈ label, e ∈ f.edges
  · obtain ⟨f, hf, hfe⟩ := hc
    exact Or.inl (List.mem_flatMap.mpr ⟨f, hf, hfe⟩)
  · push Not at hc
    exact Or.inr ((r1 e).mpr ⟨(mem_validBoundaryEdges hlt).mpr ⟨he, (edgeValid_iff m e).mpr hv⟩, hc⟩)

/-- Edge 3 belongs to a cell of another process; the other three are on one boundary each. -/
example : ∃ bs, initBoundaries ⟨4, fun e => (if e = 3 then 9 else 0, none), fun c => c == 0⟩
      [0, 1, 2, 3] [⟨0, [0]⟩, ⟨3, [1]⟩] (fun _ => true) [3] = .ok bs ∧
      (bs.flatMap Boundary.edges).Nodup :=
  ⟨[⟨0, 0, [0]⟩, ⟨1, 3, [1]⟩, ⟨2, 1, [2]⟩], rfl,
    (C20_partition_partial ⟨4, fun e => (if e = 3 then 9 else 0, none), fun c => c == 0⟩
      [0, 1, 2, 3] [⟨0, [0]⟩, ⟨3, [1]⟩] (fun _ => true) [3] _ (by decide) (by decide) (by decide) (by decide)
      (by simp) rfl).2⟩

/-- C20, C21: the two combined, for face sets in increasing order of ID: each face set becomes the
boundary with its ID and edges, and each edge of another boundary is a domain-boundary edge that is
in no face set. -/
theorem C20_contents_partial (m : EdgeMesh) (B : List ℕ) (label : List FaceSet)
    (inFile : ℤ → Bool) (cfg : List ℤ) (bs : List Boundary)
    (hids : (label.map FaceSet.id).Pairwise (· < ·))
    (h : initBoundaries m B label inFile cfg = .ok bs) :
    (∀ f ∈ label, ∃ b ∈ bs, b.id = f.id ∧ b.edges = f.edges) ∧
    (∀ b ∈ bs, b.id ∉ label.map FaceSet.id → b.edges ≠ [] ∧
      ∀ e ∈ b.edges, e ∈ B ∧ (∀ f ∈ label, e ∉ f.edges) ∧ (e < m.numEdges → m.HasOwnedCell e))
    := by
  have hn : (label.map FaceSet.id).Nodup := hids.imp fun hab => ne_of_lt hab
  have hf := C21_fresh_id_partial m B label hids
  obtain ⟨r1, _⟩ := assignLoop_snd m B label
  have heq := boundaries_eq m B label inFile cfg bs hn hf h
  constructor
  · intro f hfm
    have : (f.id, f.edges) ∈ bs.map fun b => (b.id, b.edges) := by
      rw [heq]; exact List.mem_append_left _ (List.mem_map_of_mem hfm)
    obtain ⟨b, hb, he⟩ := List.mem_map.mp this
    exact ⟨b, hb, (Prod.mk.inj he).1, (Prod.mk.inj he).2⟩
  · intro b hb hbid
    have : (b.id, b.edges) ∈ bs.map fun b => (b.id, b.edges) := List.mem_map_of_mem hb
    rw [heq, List.mem_append] at this
    rcases this with h1 | h1
    · obtain ⟨f, hfm, he⟩ := List.mem_map.mp h1
      exact absurd ((Prod.mk.inj he).1 ▸ List.mem_map_of_mem hfm) hbid
    · split_ifs at h1 with h0
      · exact absurd h1 List.not_mem_nil
      · rw [List.mem_singleton] at h1
        have he := (Prod.mk.inj h1).2
        refine ⟨he ▸ h0, ?_⟩
        intro e hem
        rw [he, r1 e] at hem
        exact ⟨validBoundaryEdges_sub hem.1, hem.2,
          fun hlt => (edgeValid_iff m e).mp ((mem_validBoundaryEdges hlt).mp hem.1).2⟩

/-- C20: the boundaries are numbered 0, 1, 2, … (the index stored in each is its position). -/
theorem C20_index (m : EdgeMesh) (B : List ℕ) (label : List FaceSet)
    (inFile : ℤ → Bool) (cfg : List ℤ) (bs : List Boundary)
    (h : initBoundaries m B label inFile cfg = .ok bs) :
    bs.map Boundary.index = List.range bs.length := by
  have key : ∀ (l : List FaceSet) (ids : List ℤ),
      (fetchBoundaries l ids).map Boundary.index = List.range (fetchBoundaries l ids).length := by
    intro l ids
    unfold fetchBoundaries
    rw [List.map_map, List.length_map, List.length_zipIdx]
    have : (ids.zipIdx).map (Boundary.index ∘ fun p => ⟨p.2, p.1, getStratum l p.1⟩)
        = (ids.zipIdx).map Prod.snd := rfl
    rw [this, List.zipIdx_map_snd, List.range_eq_range']
  unfold initBoundaries at h
  by_cases h1 : label.length > 32
  · rw [if_pos h1] at h; cases h
  rw [if_neg h1] at h
  by_cases h2 : (cfg.any fun i => !inFile i) = true
  · rw [if_pos h2] at h; cases h
  rw [if_neg h2] at h
  generalize assignLoop m B label = s at *
  obtain ⟨id, rest⟩ := s
  simp only at h
  split_ifs at h <;> (cases h; exact key _ _)

/-- C20: a configured boundary that no process finds in the mesh is an error. -/
theorem C20_missing_is_error (m : EdgeMesh) (B : List ℕ) (label : List FaceSet)
    (inFile : ℤ → Bool) (cfg : List ℤ) (i : ℤ) (hi : i ∈ cfg) (hf : inFile i = false) :
    initBoundaries m B label inFile cfg = .error := by
  unfold initBoundaries
  have : cfg.any (fun i => !inFile i) = true := List.any_eq_true.mpr ⟨i, hi, by simp [hf]⟩
  split_ifs <;> rfl

example : initBoundaries ⟨4, fun _ => (0, none), fun _ => true⟩ [0, 1, 2, 3] [⟨0, [0]⟩, ⟨3, [1]⟩]
    (fun i => i == 0 || i == 3) [3, 8] = .error :=
  C20_missing_is_error _ _ _ _ _ 8 (by simp) rfl

/-- C20 is violated together with C21: three boundary edges, face sets 1 = {0} and 0 = {1} (in that
order). Edge 0 is then in no boundary, and edge 2 is in two. -/
theorem C20_partition_violated :
    ∃ (m : EdgeMesh) (B : List ℕ) (label : List FaceSet) (bs : List Boundary),
      (label.map FaceSet.id).Nodup ∧ B = [0, 1, 2] ∧ (∀ e ∈ B, m.HasOwnedCell e) ∧
      (label.Pairwise fun f g => ∀ e, e ∈ f.edges → e ∉ g.edges) ∧
      initBoundaries m B label (fun _ => true) [] = .ok bs ∧
      (bs.flatMap Boundary.edges).count 0 = 0 ∧ (bs.flatMap Boundary.edges).count 2 = 2 :=
  ⟨⟨3, fun _ => (0, none), fun _ => true⟩, [0, 1, 2], [⟨1, [0]⟩, ⟨0, [1]⟩],
    [⟨0, 1, [2]⟩, ⟨1, 0, [1]⟩, ⟨2, 1, [2]⟩], by decide, rfl, fun _ _ => Or.inl rfl, by simp, rfl, by decide,
    by decide⟩

/-- A case that meets the hypotheses of `C20_partition_partial` and `C20_contents_partial`: face sets
0 = {0}, 3 = {1}; edge 2 is unassigned; edge 3 belongs to a ghost cell. -/
example : ∃ bs, initBoundaries ⟨4, fun e => (if e = 3 then 9 else 0, none), fun c => c == 0⟩
      [0, 1, 2, 3] [⟨0, [0]⟩, ⟨3, [1]⟩] (fun _ => true) [3] = .ok bs ∧
      bs.map (fun b => (b.index, b.id, b.edges)) = [(0, 0, [0]), (1, 3, [1]), (2, 1, [2])] := by
  refine ⟨[⟨0, 0, [0]⟩, ⟨1, 3, [1]⟩, ⟨2, 1, [2]⟩], rfl, rfl⟩

/-! ### C22 -/

/-- The specifications that name a boundary. -/
def naming (specs : List BcSpec) (name : Str) : List BcSpec :=
  specs.filter fun s => s.boundaries.contains name

theorem bcIndexStep_error (name : Str) (specs : List BcSpec) :
    specs.foldl (bcIndexStep name) .error = .error := by
  induction specs with
  | nil => rfl
  | cons s ss ih => exact ih

theorem bcIndex_eq (specs : List BcSpec) (name : Str) :
    bcIndex specs name = match naming specs name with
      | [] => .ok none
      | [s] => .ok (some s)
      | _ => .error := by
  have key : ∀ (ss : List BcSpec) (s0 : BcSpec), ss.foldl (bcIndexStep name) (.ok (some s0)) =
      match naming ss name with
      | [] => .ok (some s0)
      | _ => .error := by
    intro ss
    induction ss with
    | nil => intro s0; rfl
    | cons s ss ih =>
      intro s0
      rw [List.foldl_cons]
      by_cases h : s.boundaries.contains name = true
      · have h1 : bcIndexStep name (.ok (some s0)) s = .error := by
          simp only [bcIndexStep, h, if_true]
        rw [h1, bcIndexStep_error]
        have : naming (s :: ss) name = s :: naming ss name := by
          unfold naming; rw [List.filter_cons, if_pos h]
        rw [this]
      · have h1 : bcIndexStep name (.ok (some s0)) s = .ok (some s0) := by
          simp only [bcIndexStep, h, if_false]; rfl
        have : naming (s :: ss) name = naming ss name := by
          unfold naming; rw [List.filter_cons, if_neg h]
        rw [h1, ih s0, this]
  unfold bcIndex
  induction specs with
  | nil => rfl
  | cons s ss ih =>
    rw [List.foldl_cons]
    by_cases h : s.boundaries.contains name = true
    · have h1 : bcIndexStep name (.ok none) s = .ok (some s) := by
        simp only [bcIndexStep, h, if_true]
      have : naming (s :: ss) name = s :: naming ss name := by
        unfold naming; rw [List.filter_cons, if_pos h]
      rw [h1, key ss s, this]
      cases naming ss name <;> rfl
    · have h1 : bcIndexStep name (.ok none) s = .ok none := by
        simp only [bcIndexStep, h, if_false]; rfl
      have : naming (s :: ss) name = naming ss name := by
        unfold naming; rw [List.filter_cons, if_neg h]
      rw [h1, ih, this]

/-- C22: a boundary named by no specification gets a reflecting condition marked as automatically
generated. -/
theorem C22_unspecified_reflects (env : CondEnv) (specs : List BcSpec) (name : Str)
    (h : ∀ s ∈ specs, name ∉ s.boundaries) :
    ∃ b, bcOf env specs name = .ok b ∧ b.flow.type = .reflecting ∧ b.auto = true := by
  have hn : naming specs name = [] := by
    unfold naming
    rw [List.filter_eq_nil_iff]
    intro s hs; simpa using h s hs
  refine ⟨⟨reflectingCond env.reflName, none, none, true⟩, ?_, rfl, rfl⟩
  unfold bcOf; rw [bcIndex_eq, hn]

example : ∃ b, bcOf ⟨[⟨['d'], .dirichlet⟩], [], [], 0, false, ['r']⟩ [⟨[['a']], ['d'], [], []⟩] ['b'] =
    .ok b ∧ b.flow.type = .reflecting ∧ b.auto = true :=
  C22_unspecified_reflects _ _ _ (by simp)

/-- C22: a boundary named by two different specifications is an error. -/
theorem C22_twice_is_error (env : CondEnv) (l1 l2 l3 : List BcSpec) (s t : BcSpec) (name : Str)
    (hs : name ∈ s.boundaries) (ht : name ∈ t.boundaries) :
    bcOf env (l1 ++ s :: l2 ++ t :: l3) name = .error := by
  have hlen : 2 ≤ (naming (l1 ++ s :: l2 ++ t :: l3) name).length := by
    have h1 : s.boundaries.contains name = true := by simpa using hs
    have h2 : t.boundaries.contains name = true := by simpa using ht
    unfold naming
    simp only [List.filter_append, List.filter_cons, h1, h2, if_true, List.length_append,
      List.length_cons]
    omega
  unfold bcOf
  rw [bcIndex_eq]
  match hm : naming (l1 ++ s :: l2 ++ t :: l3) name with
  | [] => rw [hm] at hlen; simp at hlen
  | [_] => rw [hm] at hlen; simp at hlen
  | _ :: _ :: _ => rfl

example : bcOf ⟨[⟨['d'], .dirichlet⟩], [], [], 0, false, ['r']⟩
    [⟨[['a']], ['d'], [], []⟩, ⟨[['b'], ['a']], ['d'], [], []⟩] ['a'] = .error :=
  C22_twice_is_error _ [] [] [] _ _ _ (by simp) (by simp)

/-- C22: a boundary named by exactly one specification (possibly several times in it) gets the flow
condition that specification asks for: the condition with that name, or a reflecting one if none is
asked for; an unknown name is an error. -/
theorem C22_specified (env : CondEnv) (l1 l2 : List BcSpec) (s : BcSpec) (name : Str)
    (hs : name ∈ s.boundaries) (h1 : ∀ t ∈ l1, name ∉ t.boundaries)
    (h2 : ∀ t ∈ l2, name ∉ t.boundaries) (hsed : env.numClasses = 0) (hsal : env.salinityOn = false) :
    (s.flow = [] → ∃ b, bcOf env (l1 ++ s :: l2) name = .ok b ∧ b.flow.type = .reflecting ∧
      b.auto = false) ∧
    (∀ c, s.flow ≠ [] → c ∈ env.flow → c.name = s.flow →
      (∀ d ∈ env.flow, d.name = s.flow → d = c) →
      ∃ b, bcOf env (l1 ++ s :: l2) name = .ok b ∧ b.flow = c ∧ b.auto = false) ∧
    (s.flow ≠ [] → (∀ c ∈ env.flow, c.name ≠ s.flow) →
      bcOf env (l1 ++ s :: l2) name = .error) := by
  have hn : naming (l1 ++ s :: l2) name = [s] := by
    have e1 : naming l1 name = [] := by
      unfold naming; rw [List.filter_eq_nil_iff]; intro t ht; simpa using h1 t ht
    have e2 : naming l2 name = [] := by
      unfold naming; rw [List.filter_eq_nil_iff]; intro t ht; simpa using h2 t ht
    have h3 : s.boundaries.contains name = true := by simpa using hs
    unfold naming at *
    rw [List.filter_append, e1, List.filter_cons, if_pos h3, e2]; rfl
  have hof : bcOf env (l1 ++ s :: l2) name = match bcFlow env s with
      | .ok f => .ok ⟨f, none, none, false⟩
      | .error => .error
      | .ub => .ub := by
    unfold bcOf bcTracer
    rw [bcIndex_eq, hn]
    simp only [hsed, hsal, lt_irrefl, decide_false, if_false, Bool.false_eq_true]
    cases bcFlow env s <;> rfl
  refine ⟨?_, ?_, ?_⟩
  · intro hf
    refine ⟨⟨reflectingCond env.reflName, none, none, false⟩, ?_, rfl, rfl⟩
    rw [hof]; unfold bcFlow; rw [if_pos hf]
  · intro c hf hc hcn huniq
    refine ⟨⟨c, none, none, false⟩, ?_, rfl, rfl⟩
    have : findCond env.flow s.flow = some c := by
      unfold findCond
      cases hfind : env.flow.find? (fun c => decide (c.name = s.flow)) with
      | none =>
        rw [List.find?_eq_none] at hfind
        exact absurd hcn (by simpa using hfind c hc)
      | some d =>
        have hd1 := List.mem_of_find?_eq_some hfind
        have hd2 := List.find?_some hfind
        rw [huniq d hd1 (by simpa using hd2)]
    rw [hof]; unfold bcFlow; rw [if_neg hf, this]
  · intro hf hc
    have : findCond env.flow s.flow = none := by
      unfold findCond
      rw [List.find?_eq_none]
      intro c hcm; simpa using hc c hcm
    rw [hof]; unfold bcFlow; rw [if_neg hf, this]

example : ∃ b, bcOf ⟨[⟨['d'], .dirichlet⟩, ⟨['o'], .criticalOutflow⟩], [], [], 0, false, ['r']⟩
    [⟨[['a']], ['d'], [], []⟩, ⟨[['b'], ['c']], ['o'], [], []⟩] ['b'] = .ok b ∧ b.flow = ⟨['o'], .criticalOutflow⟩ ∧
    b.auto = false :=
  (C22_specified _ [⟨[['a']], ['d'], [], []⟩] [] ⟨[['b'], ['c']], ['o'], [], []⟩ ['b'] (by simp) (by simp)
    (by simp) rfl rfl).2.1 ⟨['o'], .criticalOutflow⟩ (by simp) (by simp) rfl (by simp)

/-- C22: with sediments and/or salinity on, the specified boundary gets exactly the tracer
conditions that are named, when these exist. -/
theorem C22_tracers_partial (env : CondEnv) (l1 l2 : List BcSpec) (s : BcSpec) (name : Str)
    (hs : name ∈ s.boundaries) (h1 : ∀ t ∈ l1, name ∉ t.boundaries)
    (h2 : ∀ t ∈ l2, name ∉ t.boundaries) (b : BndCond)
    (h : bcOf env (l1 ++ s :: l2) name = .ok b) :
    (0 < env.numClasses → ∃ c ∈ env.sediment, b.sediment = some c ∧ c.name = s.sediment) ∧
    (env.salinityOn = true → ∃ c ∈ env.salinity, b.salinity = some c ∧ c.name = s.salinity) ∧
    (env.numClasses = 0 → b.sediment = none) ∧ (env.salinityOn = false → b.salinity = none) := by
  have hn : naming (l1 ++ s :: l2) name = [s] := by
    have e1 : naming l1 name = [] := by
      unfold naming; rw [List.filter_eq_nil_iff]; intro t ht; simpa using h1 t ht
    have e2 : naming l2 name = [] := by
      unfold naming; rw [List.filter_eq_nil_iff]; intro t ht; simpa using h2 t ht
    have h3 : s.boundaries.contains name = true := by simpa using hs
    unfold naming at *
    rw [List.filter_append, e1, List.filter_cons, if_pos h3, e2]; rfl
  have tr : ∀ (conds : List Cond) (on : Bool) (nm : Str) (o : Option Cond),
      bcTracer conds on nm = .ok o →
      (on = true → ∃ c ∈ conds, o = some c ∧ c.name = nm) ∧ (on = false → o = none) := by
    intro conds on nm o ho
    unfold bcTracer at ho
    cases on with
    | false =>
      simp only [Bool.false_eq_true, if_false] at ho
      cases ho; simp
    | true =>
      simp only [if_true] at ho
      split_ifs at ho
      cases hf : findCond conds nm with
      | none => rw [hf] at ho; cases ho
      | some c =>
        rw [hf] at ho; cases ho
        refine ⟨fun _ => ⟨c, List.mem_of_find?_eq_some hf, rfl, ?_⟩, by simp⟩
        have := List.find?_some hf
        simpa using this
  unfold bcOf at h
  rw [bcIndex_eq, hn] at h
  simp only at h
  cases hf : bcFlow env s with
  | error => rw [hf] at h; cases h
  | ub => rw [hf] at h; cases h
  | ok f =>
    cases hs2 : bcTracer env.sediment (decide (0 < env.numClasses)) s.sediment with
    | error => rw [hf, hs2] at h; cases h
    | ub => rw [hf, hs2] at h; cases h
    | ok o1 =>
      cases hs3 : bcTracer env.salinity env.salinityOn s.salinity with
      | error => rw [hf, hs2, hs3] at h; cases h
      | ub => rw [hf, hs2, hs3] at h; cases h
      | ok o2 =>
        rw [hf, hs2, hs3] at h
        cases h
        obtain ⟨a1, a2⟩ := tr _ _ _ _ hs2
        obtain ⟨b1, b2⟩ := tr _ _ _ _ hs3
        exact ⟨fun hp => a1 (by simpa using hp), b1, fun hp => a2 (by simp [hp]), b2⟩

example : ∃ b, bcOf ⟨[⟨['d'], .dirichlet⟩], [⟨['s'], .dirichlet⟩], [], 1, false, ['r']⟩
    [⟨[['a']], ['d'], ['s'], []⟩] ['a'] = .ok b ∧ ∃ c, b.sediment = some c ∧ c.name = ['s'] := by
  refine ⟨⟨⟨['d'], .dirichlet⟩, some ⟨['s'], .dirichlet⟩, none, false⟩, rfl, ?_⟩
  obtain ⟨c, -, h1, h2⟩ := (C22_tracers_partial
    ⟨[⟨['d'], .dirichlet⟩], [⟨['s'], .dirichlet⟩], [], 1, false, ['r']⟩ [] [] ⟨[['a']], ['d'], ['s'], []⟩ ['a']
    (by simp) (by simp) (by simp) _ rfl).1 (by norm_num)
  exact ⟨c, h1, h2⟩

/-- C22 is violated for tracers: a specification naming a sediment condition that does not exist is
not reported as an error; the code forms a pointer to element -1. -/
theorem C22_unknown_tracer_violated :
    ∃ (env : CondEnv) (specs : List BcSpec) (name : Str), bcOf env specs name = .ub :=
  ⟨⟨[], [], [], 1, false, ['r']⟩, [⟨[['b']], [], ['x'], []⟩], ['b'], by rfl⟩

/-- C22: setup as a whole succeeds only if there is room for the reflecting condition and every
boundary gets a condition; then the list of conditions is, position by position, the one of each
boundary. -/
theorem C22_all (env : CondEnv) (specs : List BcSpec) (names : List Str) (bcs : List BndCond)
    (h : initBcs env specs names = .ok bcs) :
    env.flow.length < 32 ∧ names.map (bcOf env specs) = bcs.map Res.ok := by
  unfold initBcs at h
  split_ifs at h with h32
  refine ⟨by omega, ?_⟩
  induction names generalizing bcs with
  | nil => simp only [List.foldr_nil] at h; cases h; rfl
  | cons n ns ih =>
    rw [List.foldr_cons] at h
    generalize hr : List.foldr _ _ ns = r at h ih
    cases hb : bcOf env specs n with
    | error => rw [hb] at h; cases h
    | ub => rw [hb] at h; cases h
    | ok b =>
      rw [hb] at h
      cases r with
      | error => cases h
      | ub => cases h
      | ok l =>
        cases h
        rw [List.map_cons, List.map_cons, hb, ih l rfl]

/-- Boundaries "a" and "b"; the first has a Dirichlet condition "d". -/
example : initBcs ⟨[⟨['d'], .dirichlet⟩], [], [], 0, false, ['r']⟩ [⟨[['a']], ['d'], [], []⟩]
    [['a'], ['b']]
    = .ok [⟨⟨['d'], .dirichlet⟩, none, none, false⟩, ⟨⟨['r'], .reflecting⟩, none, none, true⟩] := by
  rfl

end RDy
