import Verif.Spec.Mirror
import Verif.Lemmas.RelabelMesh

/-! Mats, nets and meshes turned upside down. -/

set_option linter.unusedSectionVars false
set_option linter.unusedSimpArgs false

namespace Fibermat
variable {K : Type} [Field K] [LinearOrder K] [IsStrictOrderedRing K]
open Spec

variable {φ : ℕ → ℕ} {Z : K} {m m' : Mat K}

/-! ### Mats -/

theorem turnedOver_twice (f : Fiber K) : turnedOver Z (turnedOver Z f) = f := by
  simp [turnedOver]

/-- The mat with all fibers turned upside down, with the same numbers. -/
def Mat.turned (Z : K) (m : Mat K) : Mat K := { m with fibers := m.fibers.map (turnedOver Z) }

theorem Spec.MirroredMat.relabelled (h : MirroredMat φ Z m m') : RelabelledMat φ (m.turned Z) m' where
  attrs := h.attrs
  count := by rw [h.count]; simp [Mat.turned]
  inj := by simpa [Mat.turned] using h.inj
  fiber := by
    intro i hi
    rw [h.fiber i (by simpa [Mat.turned] using hi)]
    simp [Mat.turned]

theorem Spec.MirroredMat.back (h : MirroredMat φ Z m m') : RelabelledMat φ m (m'.turned Z) where
  attrs := h.attrs
  count := by rw [← h.count]; simp [Mat.turned]
  inj := h.inj
  fiber := by
    intro i hi
    simp only [Mat.turned, List.getElem?_map, h.fiber i hi, Option.map_map]
    cases m.fibers[i]? with
    | none => rfl
    | some f => simp [turnedOver_twice]

theorem turned_goodFiber {S : K} {f : Fiber K} (h : GoodFiber S f) : GoodFiber S (turnedOver Z f) where
  l := h.l
  b := h.b
  h := h.h
  x1 := h.x1
  x2 := h.x2
  y1 := h.y1
  y2 := h.y2
  dir1 := by simpa [turnedOver] using h.dir1
  dir2 := by simpa [turnedOver] using h.dir2
  G := h.G
  E := h.E

theorem turned_good (h : GoodMat m) : GoodMat (m.turned Z) := by
  obtain ⟨S, hS, hf⟩ := h.size
  refine ⟨by simpa [Mat.turned] using h.n, S, hS, ?_⟩
  intro f hf'
  obtain ⟨g, hg, rfl⟩ := List.mem_map.1 hf'
  exact turned_goodFiber (hf g hg)

theorem Spec.MirroredMat.good (h : MirroredMat φ Z m m') (hm : GoodMat m) : GoodMat m' := h.relabelled.good (turned_good hm)

/-! ### The system only depends on the sections and moduli -/

theorem mapM_map_ok {α β γ : Type} (f : α → Except Err β) (f' : α → Except Err γ) (g : β → γ) (h : ∀ a, f' a = (f a).map g) (l : List α) :
    l.mapM f' = (l.mapM f).map (List.map g) := by
  induction l with
  | nil => rfl
  | cons a t ih =>
    rw [List.mapM_cons, List.mapM_cons, ih, h a]
    cases f a with
    | error e => rfl
    | ok b =>
      cases t.mapM f with
      | error e => rfl
      | ok bs => rfl

theorem turned_beams (m : Mat K) (rows : List (MeshRow K)) :
    beams (m.turned Z) rows = (beams m rows).map (List.map (fun b : Beam K => { b with fiber := turnedOver Z b.fiber })) := by
  unfold beams
  refine mapM_map_ok _ _ _ ?_ _
  intro p
  by_cases hneg : p.1.fiber < 0
  · simp only [hneg, if_true]
    rfl
  · simp only [hneg, if_false, Mat.turned, List.getElem?_map]
    cases m.fibers[p.1.fiber.toNat]? with
    | none => rfl
    | some f =>
      cases rows[p.1.beam.toNat]? with
      | none => rfl
      | some r => rfl

theorem turned_thickness (m : Mat K) (rows : List (MeshRow K)) : nodeThickness (m.turned Z) rows = nodeThickness m rows := by
  unfold nodeThickness
  congr 1
  funext r
  by_cases hneg : r.fiber < 0
  · simp only [hneg, if_true]
  · simp only [hneg, if_false, Mat.turned, List.getElem?_map]
    cases m.fibers[r.fiber.toNat]? <;> rfl

theorem turned_stiffness (h : GoodMat m) (mesh : Mesh K) (lmin lmax : Option K) (coupling : K) :
    stiffness (m.turned Z) mesh lmin lmax coupling = stiffness m mesh lmin lmax coupling := by
  unfold stiffness
  rw [(matCheck_frame_iff _).2 (Or.inr h), (matCheck_frame_iff _).2 (Or.inr (turned_good h)), turned_beams]
  cases beams m mesh.rows with
  | error e => rfl
  | ok bs =>
    simp only [Except.map, Bind.bind, Except.bind, List.map_map]
    have e : ((fun b : Beam K => b.l) ∘ fun b : Beam K => { b with fiber := turnedOver Z b.fiber }) = fun b => b.l := rfl
    rw [e]
    cases meshCheck mesh.frame with
    | error e => rfl
    | ok u =>
      cases rescale lmin lmax (bs.map (·.l)) with
      | error e => rfl
      | ok ls =>
        simp only [List.zip_map_left, List.flatMap_map]
        rfl

theorem turned_constraint (h : GoodMat m) (mesh : Mesh K) : constraint (m.turned Z) mesh = constraint m mesh := by
  unfold constraint
  rw [(matCheck_frame_iff _).2 (Or.inr h), (matCheck_frame_iff _).2 (Or.inr (turned_good h)), turned_thickness]

theorem turned_solve (h : GoodMat m) (mesh : Mesh K) (lmin lmax : Option K) (coupling : K) (o : Opts K) (perm : Option (List ℕ)) :
    solve (m.turned Z) mesh lmin lmax coupling o perm = solve m mesh lmin lmax coupling o perm := by
  unfold solve
  rw [turned_stiffness h, turned_constraint h]

/-! ### Nets -/

theorem nearby_turned (f g : Fiber K) : nearby (turnedOver Z f) (turnedOver Z g) = nearby f g := rfl

theorem dotU_turned (f g : Fiber K) : dotU (turnedOver Z f) (turnedOver Z g) = dotU f g := by simp [dotU, turnedOver]

theorem dotR_turned (e f g : Fiber K) : dotR (turnedOver Z e) (turnedOver Z f) (turnedOver Z g) = dotR e f g := by
  simp only [dotR, turnedOver]; ring

theorem detU_turned (f g : Fiber K) : detU (turnedOver Z f) (turnedOver Z g) = detU f g := by simp [detU, dotU_turned]

theorem abscissae_turned (f g : Fiber K) : abscissae (turnedOver Z f) (turnedOver Z g) = abscissae f g := by
  simp only [abscissae, detU_turned, dotU_turned, dotR_turned]
  rfl

/-- Candidates of a mat without copies. -/
theorem mem_plainCands {S : K} {fs : List (Fiber K)} (hl : ∀ f ∈ fs, 0 < f.l) (c : Cand K) :
    c ∈ netCands false S fs ↔ ∃ f g, fs[c.A]? = some f ∧ fs[c.B]? = some g ∧ c.A ≤ c.B ∧ candidate ((c.A, f), (c.B, g)) = some c := by
  have key : ∀ f g, fs[c.A]? = some f → fs[c.B]? = some g → c.A ≤ c.B →
      (c ∈ netCands false S fs ↔ candidate ((c.A, f), (c.B, g)) = some c) := by
    intro f g hf hg hle
    have hk : candKey c = (c.A, c.B) := rfl
    unfold netCands
    rw [mem_sortDedup, hk, cands_of_labels]
    rcases Nat.lt_or_eq_of_le hle with hlt | heq
    · rw [plain_filter_two hlt hf hg]
      have e : triu (extOf false S (maxLength fs) [(c.A, f), (c.B, g)]) =
          [((c.A, f), (c.A, f)), ((c.A, f), (c.B, g)), ((c.B, g), (c.B, g))] := rfl
      rw [e]
      have n1 : ∀ d, candidate ((c.A, f), (c.A, f)) = some d → candKey d ≠ (c.A, c.B) := by
        intro d hd
        rcases candidate_key_labels hd with ⟨h1, h2, -⟩ | ⟨h1, h2, -⟩ <;> simp only [candKey, ne_eq, Prod.mk.injEq] at * <;> omega
      have n2 : ∀ d, candidate ((c.B, g), (c.B, g)) = some d → candKey d ≠ (c.A, c.B) := by
        intro d hd
        rcases candidate_key_labels hd with ⟨h1, h2, -⟩ | ⟨h1, h2, -⟩ <;> simp only [candKey, ne_eq, Prod.mk.injEq] at * <;> omega
      have n3 : ∀ d, candidate ((c.A, f), (c.B, g)) = some d → candKey d = (c.A, c.B) := by
        intro d hd
        rcases candidate_key_labels hd with ⟨h1, h2, -⟩ | ⟨h1, h2, h3⟩
        · simp only [candKey, h1, h2]
        · simp only at h3; omega
      cases h1 : candidate ((c.A, f), (c.A, f)) <;> cases h2 : candidate ((c.A, f), (c.B, g)) <;>
        cases h3 : candidate ((c.B, g), (c.B, g)) <;>
        simp_all [List.filterMap_cons, List.filter_cons]
    · have hfg : g = f := by rw [← heq, hf] at hg; exact (Option.some.inj hg).symm
      subst hfg
      rw [← heq, plain_filter_one hf]
      have e : triu (extOf false S (maxLength fs) [(c.A, g)]) = [((c.A, g), (c.A, g))] := rfl
      rw [e]
      have n3 : ∀ d, candidate ((c.A, g), (c.A, g)) = some d → candKey d = (c.A, c.A) := by
        intro d hd
        rcases candidate_key_labels hd with ⟨h1, h2, -⟩ | ⟨h1, h2, h3⟩
        · simp only [candKey, h1, h2]
        · simp only at h3; omega
      cases h1 : candidate ((c.A, g), (c.A, g)) <;> simp_all [List.filterMap_cons, List.filter_cons]
  constructor
  · intro h
    obtain ⟨f, g, hf, hg, hle⟩ := netCands_labels hl h
    exact ⟨f, g, hf, hg, hle, (key f g hf hg hle).1 h⟩
  · rintro ⟨f, g, hf, hg, hle, h⟩
    exact (key f g hf hg hle).2 h

/-- A candidate turned upside down. -/
def mirrorCand (φ : ℕ → ℕ) (c : Cand K) : Cand K :=
  if c.A = c.B then ⟨φ c.A, φ c.B, c.sA, c.sB⟩ else ⟨φ c.B, φ c.A, c.sB, c.sA⟩

theorem Spec.MirroredMat.lt (h : MirroredMat φ Z m m') {i : ℕ} (hi : i < m.fibers.length) : φ i < m.fibers.length := by
  have := h.relabelled.lt (i := i) (by simpa [Mat.turned] using hi)
  simpa [Mat.turned] using this

theorem Spec.MirroredMat.get (h : MirroredMat φ Z m m') {i : ℕ} {f : Fiber K} (hf : m.fibers[i]? = some f) :
    m'.fibers[φ i]? = some (turnedOver Z f) := by
  rw [h.fiber i (List.getElem?_eq_some_iff.1 hf).1, hf]; rfl

theorem Spec.MirroredMat.surj (h : MirroredMat φ Z m m') {j : ℕ} {f : Fiber K} (hf : m'.fibers[j]? = some f) :
    ∃ i g, j = φ i ∧ m.fibers[i]? = some g ∧ f = turnedOver Z g := by
  obtain ⟨i, e, hi⟩ := h.relabelled.surj hf
  simp only [Mat.turned, List.getElem?_map, Option.map_eq_some_iff] at hi
  obtain ⟨g, hg, rfl⟩ := hi
  exact ⟨i, g, e, hg, rfl⟩

theorem detU_self (f : Fiber K) : detU f f = 0 := by unfold detU; ring

/-- Candidates of the mat turned upside down. -/
theorem Spec.MirroredMat.mem_cands (h : MirroredMat φ Z m m') (hl : ∀ f ∈ m.fibers, 0 < f.l) (hl' : ∀ f ∈ m'.fibers, 0 < f.l) {S : K}
    (ho : ∀ c ∈ netCands false S m.fibers, c.A < c.B → φ c.B < φ c.A) (c' : Cand K) :
    c' ∈ netCands false S m'.fibers ↔ ∃ c ∈ netCands false S m.fibers, c' = mirrorCand φ c := by
  have cross : ∀ {a b : ℕ} {f g : Fiber K} {c : Cand K}, a < b → m.fibers[a]? = some f → m.fibers[b]? = some g →
      candidate ((a, f), (b, g)) = some c → c ∈ netCands false S m.fibers ∧ c.A = a ∧ c.B = b := by
    intro a b f g c hab hf hg hc
    have e : c.A = a ∧ c.B = b := by
      rcases candidate_key_labels hc with ⟨h1, h2, -⟩ | ⟨h1, h2, h3⟩
      · exact ⟨h1, h2⟩
      · simp only at h3; omega
    refine ⟨(mem_plainCands hl c).2 ⟨f, g, by rw [e.1]; exact hf, by rw [e.2]; exact hg, by omega, by rw [e.1, e.2]; exact hc⟩, e⟩
  constructor
  · intro hc
    obtain ⟨f', g', hf', hg', hle, hcand⟩ := (mem_plainCands hl' c').1 hc
    obtain ⟨a, f, ea, hf, rfl⟩ := h.surj hf'
    obtain ⟨b, g, eb, hg, rfl⟩ := h.surj hg'
    have ha := (List.getElem?_eq_some_iff.1 hf).1
    have hb := (List.getElem?_eq_some_iff.1 hg).1
    have hlf := hl f (List.mem_of_getElem? hf)
    have hlg := hl g (List.mem_of_getElem? hg)
    rcases Nat.lt_trichotomy a b with hab | hab | hab
    · exfalso
      have hlt : c'.A < c'.B := by
        rcases Nat.lt_or_eq_of_le hle with h0 | h0
        · exact h0
        · have := h.inj a b ha hb (by omega); omega
      rw [candidate_ne hlt (show 0 < (turnedOver Z f).l from hlf), nearby_turned, detU_turned, abscissae_turned] at hcand
      obtain ⟨x1, x2, -, x4⟩ := hcand
      have := cross hab hf hg ((candidate_ne hab hlf).2 ⟨x1, x2, rfl, x4⟩)
      have := ho _ this.1 hab
      simp only at this
      omega
    · subst hab
      have hfg : g = f := by rw [hf] at hg; exact (Option.some.inj hg).symm
      subst hfg
      have e : c'.B = c'.A := by omega
      rw [e, candidate_eq (detU_self _), nearby_turned] at hcand
      refine ⟨⟨a, a, g.l / 2, -(g.l / 2)⟩, (mem_plainCands hl _).2 ⟨g, g, hf, hf, le_rfl, ?_⟩, ?_⟩
      · rw [candidate_eq (detU_self _)]
        exact ⟨hcand.1, rfl⟩
      · rw [hcand.2]
        simp only [mirrorCand, if_true, ea]
        rfl
    · have hlt : c'.A < c'.B := by
        rcases Nat.lt_or_eq_of_le hle with h0 | h0
        · exact h0
        · have := h.inj a b ha hb (by omega); omega
      rw [candidate_ne hlt (show 0 < (turnedOver Z f).l from hlf), nearby_turned, detU_turned, abscissae_turned] at hcand
      obtain ⟨x1, x2, x3, x4⟩ := hcand
      have hx := (candidate_ne (a := b) (b := a) (f := g) (g := f) (c := ⟨b, a, (abscissae g f).1, (abscissae g f).2⟩) hab hlg).2
          ⟨by rw [nearby_comm]; exact x1, by rw [detU_comm]; exact x2, rfl, by rw [abscissae_swap _ _ x2]; exact ⟨x4.2, x4.1⟩⟩
      refine ⟨_, (cross hab hg hf hx).1, ?_⟩
      rw [x3]
      have hne : ¬ b = a := by omega
      simp only [mirrorCand, if_neg hne, abscissae_swap _ _ x2, ea, eb]
  · rintro ⟨c, hc, rfl⟩
    obtain ⟨f, g, hf, hg, hle, hcand⟩ := (mem_plainCands hl c).1 hc
    have hlf := hl f (List.mem_of_getElem? hf)
    have hlg := hl g (List.mem_of_getElem? hg)
    rw [mem_plainCands hl']
    rcases Nat.lt_or_eq_of_le hle with hlt | heq
    · have hord := ho c hc hlt
      rw [candidate_ne hlt hlf] at hcand
      obtain ⟨x1, x2, x3, x4⟩ := hcand
      have hne : ¬ c.A = c.B := by omega
      have s1 : c.sA = (abscissae f g).1 := by rw [x3]
      have s2 : c.sB = (abscissae f g).2 := by rw [x3]
      have e : mirrorCand φ c = ⟨φ c.B, φ c.A, c.sB, c.sA⟩ := by rw [mirrorCand, if_neg hne]
      rw [e]
      refine ⟨_, _, h.get hg, h.get hf, hord.le, ?_⟩
      refine (candidate_ne hord (show 0 < (turnedOver Z g).l from hlg)).2 ⟨by rw [nearby_turned, nearby_comm]; exact x1, by rw [detU_turned, detU_comm]; exact x2, ?_, ?_⟩
      · rw [abscissae_turned, abscissae_swap _ _ x2, s1, s2]
      · rw [abscissae_turned, abscissae_swap _ _ x2]; exact ⟨x4.2, x4.1⟩
    · have hfg : g = f := by rw [← heq, hf] at hg; exact (Option.some.inj hg).symm
      subst hfg
      have e : mirrorCand φ c = ⟨φ c.A, φ c.A, c.sA, c.sB⟩ := by rw [mirrorCand, if_pos heq, ← heq]
      rw [e]
      rw [← heq, candidate_eq (detU_self _)] at hcand
      refine ⟨_, _, h.get hf, h.get hf, le_rfl, ?_⟩
      rw [candidate_eq (detU_self _), nearby_turned]
      refine ⟨hcand.1, ?_⟩
      rw [hcand.2]
      rfl

/-- The net of the mat turned upside down. -/
theorem mirrored_net (h : MirroredMat φ Z m m') (hm : GoodMat m) {net : Net K} (hn : netNew m false = .ok net)
    (ho : ReversesOrder φ net.rows) : ∃ net', netNew m' false = .ok net' ∧ MirroredNet φ Z net net' := by
  obtain ⟨S, hS, hgood, rfl⟩ := netNew_ok hm hn
  have hl : ∀ f ∈ m.fibers, 0 < f.l := fun f hf => (hgood f hf).l
  have hl' : ∀ f ∈ m'.fibers, 0 < f.l := by
    obtain ⟨S', -, hg'⟩ := (h.good hm).size
    exact fun f hf => (hg' f hf).l
  refine ⟨_, netNew_eq (h.good hm) (by rw [h.attrs]; exact hS) false, by simp only [h.attrs], ?_⟩
  have ho' : ∀ c ∈ netCands false S m.fibers, c.A < c.B → φ c.B < φ c.A := by
    intro c hc hlt
    have := ho (netRow m.fibers c) (List.mem_map_of_mem hc) (by simp only [netRow]; omega)
    simpa only [netRow, Int.toNat_natCast] using this
  have hmem := h.mem_cands hl hl' ho'
  have hperm : (netCands false S m'.fibers).Perm ((netCands false S m.fibers).map (mirrorCand φ)) := by
    have nd : ∀ l : List (Cand K), (sortDedup l).Nodup := by
      intro l
      refine (sortDedup_strict l).imp ?_
      rintro a b hab rfl
      unfold candLt at hab
      omega
    refine (List.perm_ext_iff_of_nodup (nd _) ?_).2 ?_
    · refine List.Nodup.map_on ?_ (nd _)
      intro x hx y hy e
      obtain ⟨f, g, hf, hg, lx⟩ := netCands_labels hl hx
      obtain ⟨f', g', hf', hg', ly⟩ := netCands_labels hl hy
      have a1 := (List.getElem?_eq_some_iff.1 hf).1
      have a2 := (List.getElem?_eq_some_iff.1 hg).1
      have a3 := (List.getElem?_eq_some_iff.1 hf').1
      have a4 := (List.getElem?_eq_some_iff.1 hg').1
      have i1 := h.inj x.A y.A a1 a3
      have i2 := h.inj x.B y.B a2 a4
      have i3 := h.inj x.A y.B a1 a4
      have i4 := h.inj x.B y.A a2 a3
      have i5 := ho' x hx
      have i6 := ho' y hy
      have : x.A = y.A ∧ x.B = y.B := by
        unfold mirrorCand at e
        split at e <;> split at e <;> simp only [Cand.mk.injEq] at e
        · exact ⟨i1 e.1, i2 e.2.1⟩
        · have := i4 (by omega); have := i3 (by omega); omega
        · have := i4 (by omega); have := i3 (by omega); omega
        · exact ⟨i1 e.2.1, i2 e.1⟩
      exact sortDedup_unique hx hy this.1 this.2
    · intro c
      refine (hmem c).trans ?_
      rw [List.mem_map]
      exact ⟨fun ⟨d, h1, h2⟩ => ⟨d, h1, h2.symm⟩, fun ⟨d, h1, h2⟩ => ⟨d, h1, h2.symm⟩⟩
  refine (hperm.map _).trans (List.Perm.of_eq ?_)
  rw [List.map_map, List.map_map]
  refine List.map_congr_left ?_
  intro c hc
  obtain ⟨f, g, hf, hg, -⟩ := netCands_labels hl hc
  by_cases hAB : c.A = c.B
  · have : ((netRow m.fibers c).A = (netRow m.fibers c).B) := by simp only [netRow, hAB]
    simp only [Function.comp, mirrorCand, if_pos hAB, mirrorRow, if_pos this]
    simp only [netRow, Int.toNat_natCast, List.getD_eq_getElem?_getD, h.get hf, h.get hg, hf, hg, Option.getD_some, turnedOver,
      NetRow.mk.injEq, true_and]
    constructor <;> ring
  · have : ¬ ((netRow m.fibers c).A = (netRow m.fibers c).B) := by simp only [netRow]; omega
    simp only [Function.comp, mirrorCand, if_neg hAB, mirrorRow, if_neg this]
    simp only [netRow, Int.toNat_natCast, List.getD_eq_getElem?_getD, h.get hf, h.get hg, hf, hg, Option.getD_some, turnedOver,
      NetRow.mk.injEq, true_and]
    constructor <;> ring

/-! ### Meshes -/

/-- The mesh of the net turned upside down. -/
theorem mirrored_mesh (h : MirroredMat φ Z m m') {net net' : Net K} (hn : MirroredNet φ Z net net') (ho : OverMat m net.rows)
    {mesh mesh' : Mesh K} (hm : meshInit net = .ok mesh) (hm' : meshInit net' = .ok mesh') :
    ∃ σ, MirroredMesh φ Z mesh.rows mesh'.rows σ := by
  obtain ⟨place, hp⟩ := C26_constraints hm
  obtain ⟨place', hp'⟩ := C26_constraints hm'
  obtain ⟨π, hπ, hπi, hπr⟩ := perm_positions hn.rows
  have hlen : net'.rows.length = net.rows.length := by simpa using hn.rows.length_eq
  have hcount : mesh'.rows.length = mesh.rows.length := by rw [hp'.count, hp.count, hlen]
  let sw : ℕ → Bool := fun k => match net.rows[k]? with | some r => decide (r.A ≠ r.B) | none => false
  let τ : ℕ → ℕ := fun q => 2 * π (q / 2) + (if sw (q / 2) = true then 1 - q % 2 else q % 2)
  have hτ2 : ∀ q, τ q / 2 = π (q / 2) := by
    intro q
    simp only [τ]
    split <;> omega
  have hτ : ∀ q, q < 2 * net.rows.length → τ q < 2 * net.rows.length := by
    intro q hq
    have := hπ (q / 2) (by omega)
    have := hτ2 q
    omega
  have hτi : ∀ p q, p < 2 * net.rows.length → q < 2 * net.rows.length → τ p = τ q → p = q := by
    intro p q hp hq h
    have e := hπi (p / 2) (q / 2) (by omega) (by omega) (by rw [← hτ2, ← hτ2, h])
    simp only [τ, e] at h
    split at h <;> omega
  have hsurj : ∀ i, i < mesh.rows.length → ∃ q, q < 2 * net.rows.length ∧ place q = i := fun i hi => placement_surj hp hi
  classical
  let inv : ℕ → ℕ := fun i => if h : i < mesh.rows.length then Classical.choose (hsurj i h) else 0
  have hinv : ∀ i, i < mesh.rows.length → inv i < 2 * net.rows.length ∧ place (inv i) = i := by
    intro i h
    simp only [inv, dif_pos h]
    exact Classical.choose_spec (hsurj i h)
  have hinv2 : ∀ q, q < 2 * net.rows.length → inv (place q) = q := by
    intro q hq
    obtain ⟨h1, h2⟩ := hinv (place q) (hp.inRange q hq)
    exact hp.inj _ _ h1 hq h2
  refine ⟨fun i => place' (τ (inv i)), hcount, ?_, ?_, ?_⟩
  · intro i hi
    rw [← hcount]
    exact hp'.inRange _ (by rw [hlen]; exact hτ _ (hinv i hi).1)
  · intro i j hi hj h
    have h1 := hp'.inj _ _ (by rw [hlen]; exact hτ _ (hinv i hi).1) (by rw [hlen]; exact hτ _ (hinv j hj).1) h
    have h2 := hτi _ _ (hinv i hi).1 (hinv j hj).1 h1
    rw [← (hinv i hi).2, ← (hinv j hj).2, h2]
  · intro i r hr
    obtain ⟨k, row, hk, hcase⟩ := placement_cases hp hr
    have hlt : k < net.rows.length := (List.getElem?_eq_some_iff.1 hk).1
    have hk' : net'.rows[π k]? = some (mirrorRow φ Z row) := by rw [hπr k hlt, hk]; rfl
    have i0 := hinv2 (2 * k) (by omega)
    have i1 := hinv2 (2 * k + 1) (by omega)
    have hsw : sw k = decide (row.A ≠ row.B) := by simp only [sw, hk]
    obtain ⟨a', ha', eA, cA⟩ := hp'.endA (π k) _ hk'
    obtain ⟨b', hb', eB, cB⟩ := hp'.endB (π k) _ hk'
    obtain ⟨x1, x2, x3, x4⟩ := over_lt ho (List.mem_of_getElem? hk)
    have d0 : 2 * k / 2 = k := by omega
    have d1 : (2 * k + 1) / 2 = k := by omega
    have r0 : 2 * k % 2 = 0 := by omega
    have r1 : (2 * k + 1) % 2 = 1 := by omega
    by_cases hAB : row.A = row.B
    · have hsw : sw k = false := by rw [hsw]; simp [hAB]
      have t0 : τ (2 * k) = 2 * π k := by simp only [τ, d0, r0, hsw]; simp
      have t1 : τ (2 * k + 1) = 2 * π k + 1 := by simp only [τ, d1, r1, hsw]; simp
      have e : mirrorRow φ Z row = { row with A := (φ row.A.toNat : Int), B := (φ row.B.toNat : Int), zA := Z - row.zA, zB := Z - row.zB } := by
        rw [mirrorRow, if_pos hAB]
      rw [e] at eA eB cA cB
      have hAB' : (φ row.A.toNat : Int) = (φ row.B.toNat : Int) := by rw [hAB]
      simp only [if_pos hAB'] at cA cB
      simp only [if_pos hAB] at hcase
      rcases hcase with ⟨rfl, e1, c1⟩ | ⟨rfl, e1, c1⟩
      · refine ⟨a', by simp only [i0, t0]; exact ha', by rw [eA.fiber, e1.fiber], by rw [eA.s, e1.s], by rw [eA.x, e1.x],
          by rw [eA.y, e1.y], by rw [eA.z, e1.z], ?_⟩
        rw [cA, c1]; simp only [Int.toNat_natCast, i0, t0]
      · refine ⟨b', by simp only [i1, t1]; exact hb', by rw [eB.fiber, e1.fiber], by rw [eB.s, e1.s], by rw [eB.x, e1.x],
          by rw [eB.y, e1.y], by rw [eB.z, e1.z], ?_⟩
        rw [cB, c1]; simp only [Int.toNat_natCast, i1, t1]
    · have hsw : sw k = true := by rw [hsw]; simp [hAB]
      have t0 : τ (2 * k) = 2 * π k + 1 := by simp only [τ, d0, r0, hsw]; simp
      have t1 : τ (2 * k + 1) = 2 * π k := by simp only [τ, d1, r1, hsw]; simp
      have e : mirrorRow φ Z row = ⟨(φ row.B.toNat : Int), (φ row.A.toNat : Int), row.sB, row.sA, row.xB, row.yB, Z - row.zB, row.xA,
          row.yA, Z - row.zA⟩ := by
        rw [mirrorRow, if_neg hAB]
      rw [e] at eA eB cA cB
      have hAB' : ¬ ((φ row.B.toNat : Int) = (φ row.A.toNat : Int)) := by
        intro e
        have := h.inj _ _ x2 x1 (by omega)
        omega
      simp only [if_neg hAB'] at cA cB
      simp only [if_neg hAB] at hcase
      rcases hcase with ⟨rfl, e1, c1⟩ | ⟨rfl, e1, c1⟩
      · refine ⟨b', by simp only [i0, t0]; exact hb', by rw [eB.fiber, e1.fiber], by rw [eB.s, e1.s], by rw [eB.x, e1.x],
          by rw [eB.y, e1.y], by rw [eB.z, e1.z], ?_⟩
        rw [cB, c1]; simp only [Int.toNat_natCast, i1, t1]
      · refine ⟨a', by simp only [i1, t1]; exact ha', by rw [eA.fiber, e1.fiber], by rw [eA.s, e1.s], by rw [eA.x, e1.x],
          by rw [eA.y, e1.y], by rw [eA.z, e1.z], ?_⟩
        rw [cA, c1]; simp only [Int.toNat_natCast, i0, t0]

/-- Connected nodes of the mesh of a net whose crossing fibers are numbered in the opposite order. -/
theorem placement_reverses {rows : List (MeshRow K)} {net : List (NetRow K)} {place : ℕ → ℕ} (hp : Placement net rows place)
    (hs : NodesSorted rows) (hle : ∀ r ∈ net, r.A ≤ r.B) (hk : ReversesOrder φ net) : ReversesOrderMesh φ rows := by
  intro i j r p hr hpj hc hij
  have hfib := sorted_fiber hs hr hpj hij.le
  obtain ⟨k, row, hkr, ⟨rfl, e1, c1⟩ | ⟨rfl, e1, c1⟩⟩ := placement_cases hp hr
  · by_cases hAB : row.A = row.B
    · rw [if_pos hAB] at c1; omega
    · rw [if_neg hAB] at c1
      obtain ⟨b, hb, eb, -⟩ := hp.endB k row hkr
      have : j = place (2 * k + 1) := by omega
      rw [← this, hpj] at hb; cases hb
      have hle := hle row (List.mem_of_getElem? hkr)
      rw [e1.fiber, eb.fiber]
      exact hk row (List.mem_of_getElem? hkr) (by omega)
  · by_cases hAB : row.A = row.B
    · rw [if_pos hAB] at c1; omega
    · rw [if_neg hAB] at c1
      obtain ⟨b, hb, eb, -⟩ := hp.endA k row hkr
      have : j = place (2 * k) := by omega
      rw [← this, hpj] at hb; cases hb
      have hle := hle row (List.mem_of_getElem? hkr)
      rw [e1.fiber, eb.fiber] at hfib
      exact absurd (le_antisymm hle hfib) hAB

end Fibermat
