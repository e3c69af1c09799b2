import Verif.Lemmas.Constraint
import Verif.Props.Stack
import Verif.Props.Stiffness

/-! # Theorems on `constraint` (C37-C39) -/

set_option linter.unusedSectionVars false
set_option linter.unusedSimpArgs false

namespace Fibermat
variable {K : Type} [Field K] [LinearOrder K] [IsStrictOrderedRing K]
open Spec

/-! ## C37 -/

theorem nodeThick_eq {mat : Mat K} {rows : List (MeshRow K)} {hs : List K} (h : nodeThickness mat rows = .ok hs) {i : ℕ}
    (hi : i < rows.length) : hs[i]? = some (nodeThick mat rows i) := by
  obtain ⟨-, h2⟩ := nodeThickness_spec h
  have hr : rows[i]? = some rows[i] := List.getElem?_eq_getElem hi
  obtain ⟨-, f, hf, e⟩ := h2 i _ hr
  rw [e]
  simp [nodeThick, hr, hf]

theorem nodeThick_pos {mat : Mat K} (hm : GoodMat mat) {rows : List (MeshRow K)} {hs : List K}
    (h : nodeThickness mat rows = .ok hs) {i : ℕ} (hi : i < rows.length) : 0 < nodeThick mat rows i := by
  obtain ⟨-, h2⟩ := nodeThickness_spec h
  have hr : rows[i]? = some rows[i] := List.getElem?_eq_getElem hi
  obtain ⟨-, f, hf, e⟩ := h2 i _ hr
  obtain ⟨S, -, hS⟩ := hm.size
  have := (hS f (List.mem_of_getElem? hf)).h
  have e' := nodeThick_eq h hi
  rw [e] at e'
  rw [← Option.some.inj e']
  exact this

/-- The data of a contact in terms of heights and thicknesses of nodes. -/
theorem contact_data {mat : Mat K} {rows : List (MeshRow K)} {hs : List K} (h : nodeThickness mat rows = .ok hs)
    {c : Contact K} (hc : IsContact rows hs c) :
    c.i < rows.length ∧ c.j < rows.length ∧ c.zi = nodeHeight rows c.i ∧ c.zj = nodeHeight rows c.j ∧
      c.hi = nodeThick mat rows c.i ∧ c.hj = nodeThick mat rows c.j := by
  obtain ⟨r, p, h1, h2, -, e1, e2, e3, e4⟩ := hc.rows
  have i1 := (List.getElem?_eq_some_iff.1 h1).1
  have i2 := (List.getElem?_eq_some_iff.1 h2).1
  have t1 := nodeThick_eq h i1
  have t2 := nodeThick_eq h i2
  rw [e3] at t1; rw [e4] at t2
  refine ⟨i1, i2, ?_, ?_, by simpa using t1, by simpa using t2⟩
  · rw [e1]; simp [nodeHeight, h1]
  · rw [e2]; simp [nodeHeight, h2]

/-- All the inequalities `C u ≤ H` hold. -/
def Admissible (cs : ConstraintSys K) (u : ℕ → K) : Prop :=
  ∀ k, k < cs.C.nrows → ∃ b, cs.H[k]? = some b ∧ Cell.le (.fin (rowDot cs.C k u)) b = true

theorem top_isTop {mat : Mat K} {rows : List (MeshRow K)} {hs : List K} (h : nodeThickness mat rows = .ok hs) {Z : K}
    (hZ : npMax ((rows.zip hs).map (fun p => p.1.z + p.2 / 2)) = .ok Z) : IsTop mat rows Z := by
  obtain ⟨h1, h2⟩ := npMax_ge hZ
  have key : ∀ x, x ∈ (rows.zip hs).map (fun p => p.1.z + p.2 / 2) ↔
      ∃ i, i < rows.length ∧ x = nodeHeight rows i + nodeThick mat rows i / 2 := by
    intro x
    constructor
    · intro hx
      obtain ⟨p, hp, rfl⟩ := List.mem_map.1 hx
      obtain ⟨i, hi⟩ := List.mem_iff_getElem?.1 hp
      rw [List.getElem?_zip_eq_some] at hi
      have hi' := (List.getElem?_eq_some_iff.1 hi.1).1
      refine ⟨i, hi', ?_⟩
      have := nodeThick_eq h hi'
      rw [hi.2] at this
      have : p.2 = nodeThick mat rows i := by simpa using this
      simp [nodeHeight, hi.1, this]
    · rintro ⟨i, hi, rfl⟩
      refine List.mem_map.2 ⟨(rows[i], nodeThick mat rows i), ?_, by simp [nodeHeight, hi]⟩
      apply List.mem_iff_getElem?.2
      exact ⟨i, by rw [List.getElem?_zip_eq_some]; exact ⟨List.getElem?_eq_getElem hi, nodeThick_eq h hi⟩⟩
  refine ⟨(key Z).1 h1, fun i hi => h2 _ ((key _).2 ⟨i, hi, rfl⟩)⟩

/-- The inequalities with the bounds of a plate at any height `Z` say exactly that the displaced nodes do not penetrate each
other or the plates at `0` and `Z`. -/
theorem nonPenetrating_iff {mat : Mat K} {mesh : Mesh K} (hm : GoodMat mat) (hc : ConstraintsReciprocal mesh.rows)
    {hs : List K} {l : List (Contact K)} (h3 : nodeThickness mat mesh.rows = .ok hs)
    (c1 : ∀ c ∈ l, IsContact mesh.rows hs c)
    (c2 : ∀ (i : ℕ) (r : MeshRow K), mesh.rows[i]? = some r → (i : Int) ≤ r.constraint → ∃ c ∈ l, c.i = i) (Z : K) (u : ℕ → K) :
    (∀ k, k < 3 * l.length → ∃ b, (l.flatMap (contactBounds Z))[k]? = some b ∧ Cell.le (.fin (rowDot ⟨3 * l.length,
      2 * mesh.rows.length, l.zipIdx.flatMap (fun p => contactEntries p.2 p.1.i p.1.j)⟩ k u)) b = true) ↔
      NonPenetrating mat mesh.rows Z u := by
  have hN : ∀ c ∈ l, 2 * c.i < 2 * mesh.rows.length ∧ 2 * c.j < 2 * mesh.rows.length := by
    intro c hcm
    obtain ⟨i1, i2, -⟩ := contact_data h3 (c1 c hcm)
    omega
  have hrow := fun k d c hk hd => contact_row (2 * mesh.rows.length) l hN (k := k) (d := d) (c := c) hk hd u
  have hpos := fun i (hi : i < mesh.rows.length) => nodeThick_pos hm h3 hi
  constructor
  · intro hA
    -- the three inequalities of each contact
    have hcon : ∀ c ∈ l, - u (2 * c.i) ≤ c.zi - c.hi / 2 ∧ (c.i ≠ c.j → u (2 * c.i) - u (2 * c.j) ≤ c.zj - c.zi - (c.hi + c.hj) / 2) ∧
        u (2 * c.j) ≤ Z - c.zj - c.hj / 2 := by
      intro c hcm
      obtain ⟨k, hk⟩ := List.mem_iff_getElem?.1 hcm
      have hkl := (List.getElem?_eq_some_iff.1 hk).1
      refine ⟨?_, ?_, ?_⟩
      · obtain ⟨b, hb, hle⟩ := hA (3 * k + 0) (by omega)
        rw [bounds_at Z l hk (by omega)] at hb
        rw [hrow k 0 c hk (by omega)] at hle
        simp only [contactBounds, List.getElem?_cons_zero, Option.some.injEq] at hb
        subst hb
        simpa using Cell.le_fin_iff.1 hle
      · intro hne
        obtain ⟨b, hb, hle⟩ := hA (3 * k + 1) (by omega)
        rw [bounds_at Z l hk (by omega)] at hb
        rw [hrow k 1 c hk (by omega)] at hle
        simp only [contactBounds, List.getElem?_cons_succ, List.getElem?_cons_zero, Option.some.injEq, if_neg hne] at hb
        subst hb
        simpa using Cell.le_fin_iff.1 hle
      · obtain ⟨b, hb, hle⟩ := hA (3 * k + 2) (by omega)
        rw [bounds_at Z l hk (by omega)] at hb
        rw [hrow k 2 c hk (by omega)] at hle
        simp only [contactBounds, List.getElem?_cons_succ, List.getElem?_cons_zero, Option.some.injEq] at hb
        subst hb
        simpa using Cell.le_fin_iff.1 hle
    -- each node is the first or the second node of a contact
    have hnode : ∀ i, i < mesh.rows.length → ∃ c ∈ l, c.i = i ∨ c.j = i := by
      intro i hi
      have hr : mesh.rows[i]? = some mesh.rows[i] := List.getElem?_eq_getElem hi
      obtain ⟨j, p, hj, hp, hpi⟩ := hc i _ hr
      rcases le_total i j with hij | hij
      · obtain ⟨c, hcm, e⟩ := c2 i _ hr (by omega)
        exact ⟨c, hcm, Or.inl e⟩
      · obtain ⟨c, hcm, e⟩ := c2 j _ hp (by omega)
        refine ⟨c, hcm, Or.inr ?_⟩
        obtain ⟨r, q, g1, g2, g3, -⟩ := (c1 c hcm).rows
        rw [e, hp] at g1; cases g1
        omega
    have hpair : ∀ c ∈ l, c.i ≠ c.j → u (2 * c.i) - u (2 * c.j) ≤ nodeHeight mesh.rows c.j - nodeHeight mesh.rows c.i -
        (nodeThick mat mesh.rows c.i + nodeThick mat mesh.rows c.j) / 2 := by
      intro c hcm hne
      obtain ⟨-, -, e1, e2, e3, e4⟩ := contact_data h3 (c1 c hcm)
      rw [← e1, ← e2, ← e3, ← e4]
      exact (hcon c hcm).2.1 hne
    have hfr : ∀ c ∈ l, nodeThick mat mesh.rows c.i / 2 ≤ nodeHeight mesh.rows c.i + u (2 * c.i) ∧
        nodeHeight mesh.rows c.j + u (2 * c.j) ≤ Z - nodeThick mat mesh.rows c.j / 2 := by
      intro c hcm
      obtain ⟨-, -, e1, e2, e3, e4⟩ := contact_data h3 (c1 c hcm)
      obtain ⟨g1, -, g3⟩ := hcon c hcm
      rw [← e1, ← e2, ← e3, ← e4]
      constructor <;> linarith
    refine ⟨?_, ?_, ?_⟩
    · intro i hi
      obtain ⟨c, hcm, rfl | rfl⟩ := hnode i hi
      · exact (hfr c hcm).1
      · by_cases he : c.i = c.j
        · rw [← he]; exact (hfr c hcm).1
        · have := hpair c hcm he
          have := (hfr c hcm).1
          have := hpos c.i (contact_data h3 (c1 c hcm)).1
          linarith
    · intro i hi
      obtain ⟨c, hcm, rfl | rfl⟩ := hnode i hi
      · by_cases he : c.i = c.j
        · rw [he]; exact (hfr c hcm).2
        · have := hpair c hcm he
          have := (hfr c hcm).2
          have := hpos c.j (contact_data h3 (c1 c hcm)).2.1
          linarith
      · exact (hfr c hcm).2
    · intro i j r hr hj hij
      obtain ⟨c, hcm, rfl⟩ := c2 i r hr (by omega)
      obtain ⟨r', q, g1, g2, g3, -⟩ := (c1 c hcm).rows
      rw [hr] at g1; cases g1
      have : c.j = j := by omega
      subst this
      have := hpair c hcm (by omega)
      linarith
  · rintro ⟨hf, hr, hp⟩ k hk
    obtain ⟨q, d, hd, rfl⟩ : ∃ q d, d < 3 ∧ k = 3 * q + d := ⟨k / 3, k % 3, by omega, by omega⟩
    have hq : q < l.length := by omega
    have hlq : l[q]? = some l[q] := List.getElem?_eq_getElem hq
    have hmem : l[q] ∈ l := List.getElem_mem hq
    generalize l[q] = c at hlq hmem
    rw [bounds_at Z l hlq hd, hrow q d c hlq hd]
    obtain ⟨i1, i2, e1, e2, e3, e4⟩ := contact_data h3 (c1 c hmem)
    interval_cases d
    · refine ⟨_, rfl, ?_⟩
      simp only [if_true]
      rw [Cell.le_fin_iff, e1, e3]
      have := hf c.i i1
      linarith
    · refine ⟨_, rfl, ?_⟩
      rw [if_neg (by omega), if_pos rfl]
      by_cases he : c.i = c.j
      · rw [if_pos he]; rfl
      · rw [if_neg he, Cell.le_fin_iff, e1, e2, e3, e4]
        obtain ⟨r, p, g1, g2, g3, -⟩ := (c1 c hmem).rows
        have := hp c.i c.j r g1 g3 (lt_of_le_of_ne (c1 c hmem).le he)
        linarith
    · refine ⟨_, rfl, ?_⟩
      rw [if_neg (by omega), if_neg (by omega), Cell.le_fin_iff, e2, e4]
      have := hr c.j i2
      linarith

/-- `C u ≤ H` says exactly that the displaced nodes do not penetrate each other or the plates at `0` and `Z`, `Z` being the
initial top of the nodes. -/
theorem C37_geometric {mat : Mat K} {mesh : Mesh K} {cs : ConstraintSys K} (h : constraint mat mesh = .ok cs)
    (hm : GoodMat mat) (hc : ConstraintsReciprocal mesh.rows) :
    IsTop mat mesh.rows cs.Z ∧ cs.H.length = cs.C.nrows ∧ cs.dH.length = cs.C.nrows ∧
      cs.C.ncols = 2 * mesh.rows.length ∧
      ∀ u, Admissible cs u ↔ NonPenetrating mat mesh.rows cs.Z u := by
  obtain ⟨-, -, hs, l, Z, h3, h4, h5, rfl⟩ := constraint_eq h
  refine ⟨top_isTop h3 h5, flatMap3_length _ (fun _ => rfl) _, flatMap3_length _ (fun _ => rfl) _, rfl, fun u => ?_⟩
  obtain ⟨hlen, -⟩ := nodeThickness_spec h3
  obtain ⟨c1, c2, -⟩ := contacts_spec hlen h4
  exact nonPenetrating_iff hm hc h3 c1 c2 Z u

/-- `constraint` succeeds on a valid non-empty mesh over the fibers of a valid mat. -/
theorem C37_total {mat : Mat K} {mesh : Mesh K} (hm : GoodMat mat) (hv : meshCheck mesh.frame = .ok ())
    (hc : ConstraintsReciprocal mesh.rows) (ho : OverFibers mat mesh.rows) (hne : mesh.rows ≠ []) :
    ∃ cs, constraint mat mesh = .ok cs := by
  obtain ⟨hs, h1⟩ := nodeThickness_total ho
  obtain ⟨hlen, -⟩ := nodeThickness_spec h1
  obtain ⟨l, h2⟩ := contacts_total hlen hc
  have : (mesh.rows.zip hs).map (fun p => p.1.z + p.2 / 2) ≠ [] := by
    intro h
    have := congrArg List.length h
    simp [hlen] at this
    exact hne this
  obtain ⟨Z, h3⟩ := npMax_ok this
  exact ⟨_, constraint_of ((matCheck_frame_iff _).2 (Or.inr hm)) hv h1 h2 h3⟩

/-! ## C38 -/

/-- In the mesh of a planar stack the nodes do not penetrate each other or the floor. -/
theorem C38_stacked {lin : Linprog K} (hlin : GoodLinprog lin) {m : Mat K} (h : GoodMat m)
    (hw : ∀ f ∈ m.fibers, f.w = 0) {periodic : Bool} {net : Net K} (hn : netNew m periodic = .ok net)
    {threshold : Option K} {m' : Mat K} {st : Net K} (hst : stackNew lin m net threshold = .ok (m', st))
    {mesh : Mesh K} (hmesh : meshInit st = .ok mesh) {cs : ConstraintSys K} (hcs : constraint m' mesh = .ok cs) :
    Admissible cs (fun _ => 0) ∧ ∀ (k : ℕ) (b : Cell K), cs.H[k]? = some b → Cell.le (.fin 0) b = true := by
  obtain ⟨hck, ho, hper⟩ := netNew_over h hn
  obtain ⟨hlen, hlow, hsame, hgood, hcase⟩ := stack_lowest hlin h hck ho hst
  obtain ⟨hfloor, hgap⟩ := C17_no_overlap hlin h hw hn hst
  obtain ⟨place, hp⟩ := C26_constraints hmesh
  have hrec := C26_reciprocal hmesh
  obtain ⟨htop, hHl, -, hnc, hiff⟩ := C37_geometric hcs hgood hrec
  -- rows of the stack are over the mat and at the heights of its fibers
  have hrows : ∀ r ∈ st.rows, (0 ≤ r.A ∧ r.A ≤ r.B ∧ r.B < (m'.fibers.length : Int)) ∧
      r.zA = heightOf m' r.A.toNat ∧ r.zB = heightOf m' r.B.toNat := by
    intro r hr
    rcases hcase with ⟨he, hr', rfl⟩ | ⟨net', h1, rfl⟩
    · rw [hr'] at hr; simp at hr
    · have hr2 : r ∈ net'.rows := by
        obtain ⟨p, e, -⟩ := keep_rows threshold net'
        rw [e] at hr
        exact (List.mem_filter.1 hr).1
      exact ⟨(netNew_over hgood h1).2.1 r hr2, row_heights hgood (same_planar hsame hw) h1 hr2⟩
  have hthick : ∀ (i : ℕ) (a : MeshRow K), mesh.rows[i]? = some a → nodeThick m' mesh.rows i = thick m' a.fiber.toNat := by
    intro i a ha; simp [nodeThick, thick, ha]
  have hheight : ∀ (i : ℕ) (a : MeshRow K), mesh.rows[i]? = some a → nodeHeight mesh.rows i = a.z := by
    intro i a ha; simp [nodeHeight, ha]
  -- each node is at the height of its fiber
  have hz : ∀ (i : ℕ) (a : MeshRow K), mesh.rows[i]? = some a → a.z = heightOf m' a.fiber.toNat ∧ a.fiber.toNat < m'.fibers.length := by
    intro i a ha
    obtain ⟨k, r, hk, ⟨-, ea, -⟩ | ⟨-, ea, -⟩⟩ := placement_cases hp ha
    · obtain ⟨⟨g1, g2, g3⟩, g4, -⟩ := hrows r (List.mem_of_getElem? hk)
      rw [ea.z, ea.fiber]; exact ⟨g4, by omega⟩
    · obtain ⟨⟨g1, g2, g3⟩, -, g4⟩ := hrows r (List.mem_of_getElem? hk)
      rw [ea.z, ea.fiber]; exact ⟨g4, by omega⟩
  have hadm : Admissible cs (fun _ => 0) := by
    rw [hiff]
    refine ⟨?_, ?_, ?_⟩
    · intro i hi
      have ha : mesh.rows[i]? = some mesh.rows[i] := List.getElem?_eq_getElem hi
      obtain ⟨g1, g2⟩ := hz i _ ha
      rw [hthick i _ ha, hheight i _ ha, g1, add_zero]
      have hf : m'.fibers[(mesh.rows[i]).fiber.toNat]? = some (m'.fibers[(mesh.rows[i]).fiber.toNat]) :=
        List.getElem?_eq_getElem g2
      simp only [thick, heightOf, hf, Option.map_some, Option.getD_some]
      exact hfloor _ (List.getElem_mem g2)
    · intro i hi
      have := htop.2 i hi
      simp only [add_zero]; linarith
    · intro i j a ha hj hij
      simp only [add_zero]
      obtain ⟨k, r, hk, ⟨e0, ea, ec⟩ | ⟨e0, ea, ec⟩⟩ := placement_cases hp ha
      · have hrm := List.mem_of_getElem? hk
        obtain ⟨⟨g1, g2, g3⟩, g4, g5⟩ := hrows r hrm
        by_cases hAB : r.A = r.B
        · rw [if_pos hAB] at ec; omega
        · rw [if_neg hAB] at ec
          have hj' : j = place (2 * k + 1) := by omega
          obtain ⟨b, hb, eb, -⟩ := hp.endB k r hk
          rw [← hj'] at hb
          have := hgap r hrm (by omega)
          rw [hthick i _ ha, hthick j _ hb, hheight i _ ha, hheight j _ hb, ea.fiber, eb.fiber, ea.z, eb.z]
          exact this
      · -- node of the B end listed before its partner: excluded by the order of nodes
        have hrm := List.mem_of_getElem? hk
        obtain ⟨⟨g1, g2, g3⟩, g4, g5⟩ := hrows r hrm
        by_cases hAB : r.A = r.B
        · rw [if_pos hAB] at ec; omega
        · rw [if_neg hAB] at ec
          have hj' : j = place (2 * k) := by omega
          obtain ⟨b, hb, eb, -⟩ := hp.endA k r hk
          rw [← hj'] at hb
          have hsort := (C24_mesh_sorted hmesh).2
          obtain ⟨i1, x1⟩ := List.getElem?_eq_some_iff.1 ha
          obtain ⟨i2, x2⟩ := List.getElem?_eq_some_iff.1 hb
          have := List.pairwise_iff_getElem.1 hsort i j i1 i2 hij
          rw [x1, x2, ea.fiber, eb.fiber] at this
          omega
  refine ⟨hadm, ?_⟩
  intro k b hb
  have hk : k < cs.C.nrows := by
    have := (List.getElem?_eq_some_iff.1 hb).1
    omega
  obtain ⟨b', hb', hle⟩ := hadm k hk
  rw [hb] at hb'; cases hb'
  have : rowDot cs.C k (fun _ => 0) = 0 := by simp [rowDot]
  rwa [this] at hle

/-- The whole chain succeeds for a planar mat with at least one fiber: `constraint(mat, Mesh(Stack(mat, Net(mat))))` exists. -/
theorem C38_chain {lin : Linprog K} (hlin : GoodLinprog lin) {m : Mat K} (h : GoodMat m) (hne : m.fibers ≠ [])
    {periodic : Bool} {net : Net K} (hn : netNew m periodic = .ok net) (threshold : Option K) :
    ∃ m' st mesh cs, stackNew lin m net threshold = .ok (m', st) ∧ meshNew st = .ok mesh ∧ meshInit st = .ok mesh ∧
      constraint m' mesh = .ok cs := by
  obtain ⟨m', st, mesh, h1, h2, h3⟩ := C27_mesh_of_stack hlin h hn threshold
  obtain ⟨hck, ho, hper⟩ := netNew_over h hn
  obtain ⟨hlen, -, -, hgood, hcase⟩ := stack_lowest hlin h hck ho h1
  obtain ⟨net', g1, rfl⟩ : ∃ net', netNew m' (net.attrs.periodic.getD true) = .ok net' ∧ st = keep threshold net' := by
    rcases hcase with ⟨he, -⟩ | hc
    · exact absurd he hne
    · exact hc
  obtain ⟨p, e, hself⟩ := keep_rows threshold net'
  have hover : ∀ r ∈ (keep threshold net').rows, 0 ≤ r.A ∧ r.A ≤ r.B ∧ r.B < (m'.fibers.length : Int) := by
    intro r hr
    rw [e] at hr
    exact (netNew_over hgood g1).2.1 r (List.mem_filter.1 hr).1
  obtain ⟨place, hp⟩ := C26_constraints h3
  have hmc : meshCheck mesh.frame = .ok () := by
    obtain ⟨-, rfl⟩ := meshInit_ok h3
    rw [meshNew_eq (netCheck_keep hgood g1 threshold)] at h2
    cases hc : meshCheck (Mesh.frame { rows := meshRows (keep threshold net').rows, attrs := (keep threshold net').attrs }) with
    | ok u => rfl
    | error e => rw [hc] at h2; simp [Except.map] at h2
  have hof : OverFibers m' mesh.rows := by
    intro a ha
    obtain ⟨i, ha⟩ := List.mem_iff_getElem?.1 ha
    obtain ⟨k, r, hk, ⟨-, ea, -⟩ | ⟨-, ea, -⟩⟩ := placement_cases hp ha <;>
      (obtain ⟨g1, g2, g3⟩ := hover r (List.mem_of_getElem? hk)
       rw [ea.fiber]; constructor <;> omega)
  have hner : mesh.rows ≠ [] := by
    intro h0
    have hc := hp.count
    rw [h0] at hc
    have h00 : (keep threshold net').rows = [] := by
      rw [← List.length_eq_zero_iff]; simp at hc; simpa using hc
    -- the end row of fiber 0 is kept
    have hm0 : 0 < m'.fibers.length := by rw [hlen]; exact List.length_pos_iff.2 hne
    obtain ⟨k, r, hk, ha, hb, -⟩ := C07_end_row hgood g1 (List.getElem?_eq_getElem hm0)
    have hr := List.mem_of_getElem? hk
    have : r ∈ (keep threshold net').rows := by
      rw [e]; exact List.mem_filter.2 ⟨hr, hself r hr (by rw [ha, hb])⟩
    rw [h00] at this; simp at this
  obtain ⟨cs, hcs⟩ := C37_total hgood hmc (C26_reciprocal h3) hof hner
  exact ⟨m', _, mesh, cs, h1, h2, h3, hcs⟩

/-! ## C39 -/

/-- `constraint` changes nothing in the mesh but its column `h`, which becomes the thickness of the fiber of each node; a
second call gives the same result. -/
theorem C39_only_h {mat : Mat K} {mesh : Mesh K} {cs : ConstraintSys K} (h : constraint mat mesh = .ok cs) :
    cs.mesh.rows = mesh.rows ∧ cs.mesh.attrs = mesh.attrs ∧
      (∃ hs, cs.mesh.h = some hs ∧ hs.length = mesh.rows.length ∧
        ∀ (i : ℕ) (r : MeshRow K), mesh.rows[i]? = some r → ∃ f, mat.fibers[r.fiber.toNat]? = some f ∧ hs[i]? = some f.h) ∧
      constraint mat cs.mesh = .ok cs := by
  obtain ⟨h1, h2, hs, l, Z, h3, h4, h5, rfl⟩ := constraint_eq h
  obtain ⟨hlen, hsp⟩ := nodeThickness_spec h3
  refine ⟨rfl, rfl, ⟨hs, rfl, hlen, fun i r hr => (hsp i r hr).2⟩, ?_⟩
  exact constraint_of (mesh := { mesh with h := some hs }) h1 h2 h3 h4 h5

/-! ## Non-vacuity -/

theorem duoMesh_reciprocal : ConstraintsReciprocal duoMesh.rows := by
  have := duoMesh_valid.constraints
  rwa [rows_meshFrame] at this

theorem duo_constraint : ∃ cs, constraint duoMat duoMesh = .ok cs :=
  C37_total duoMat_good (by decide +kernel) duoMesh_reciprocal duoMesh_over.1 (by simp [duoMesh])

/-- The two fibers touch: the rest position is admissible, lowering the upper fiber is not. -/
example : ∃ cs, constraint duoMat duoMesh = .ok cs ∧ cs.Z = 2 ∧ cs.H.length = 15 ∧ Admissible cs (fun _ => 0) ∧
    ¬ Admissible cs (fun r => if r = 8 then -1 / 10 else 0) := by
  obtain ⟨cs, h⟩ := duo_constraint
  have hx : (constraint duoMat duoMesh).toOption.map (fun c => (c.Z, c.H)) =
      some (2, [.fin 0, .pinf, .fin 1, .fin 0, .fin 0, .fin 0, .fin 0, .pinf, .fin 1, .fin 1, .pinf, .fin 0, .fin 1, .pinf, .fin 0]) := by
    decide +kernel
  rw [h] at hx
  simp only [Except.toOption, Option.map_some, Option.some.injEq, Prod.mk.injEq] at hx
  obtain ⟨-, -, -, -, hiff⟩ := C37_geometric h duoMat_good duoMesh_reciprocal
  refine ⟨cs, h, hx.1, by rw [hx.2]; rfl, ?_, ?_⟩
  · rw [hiff, hx.1]
    refine ⟨?_, ?_, ?_⟩
    · intro i hi
      have hi : i < 6 := hi
      interval_cases i <;> norm_num [nodeThick, nodeHeight, duoMesh, duoMat]
    · intro i hi
      have hi : i < 6 := hi
      interval_cases i <;> norm_num [nodeThick, nodeHeight, duoMesh, duoMat]
    · intro i j r hr hj hij
      have hi : i < 6 := (List.getElem?_eq_some_iff.1 hr).1
      interval_cases i <;> simp [duoMesh] at hr <;> subst hr <;> simp at hj <;>
        first | omega | (have : j = 4 := by omega
                         subst this
                         norm_num [nodeThick, nodeHeight, duoMesh, duoMat])
  · rw [hiff]
    intro hn
    have := hn.pair 1 4 _ rfl rfl (by omega)
    norm_num [nodeThick, nodeHeight, duoMesh, duoMat] at this

/-- Hypotheses of C38 are met by three crossing fibers. -/
example {lin : Linprog ℚ} (hlin : GoodLinprog lin) (threshold : Option ℚ) : ∃ (net : Net ℚ) (m' : Mat ℚ) (st : Net ℚ)
    (mesh : Mesh ℚ) (cs : ConstraintSys ℚ), netNew crossMat true = .ok net ∧
    stackNew lin crossMat net threshold = .ok (m', st) ∧ meshInit st = .ok mesh ∧ constraint m' mesh = .ok cs ∧
    Admissible cs (fun _ => 0) := by
  obtain ⟨net, hn, -⟩ := C06_netNew_ok crossMat_good true
  obtain ⟨m', st, mesh, cs, h1, -, h3, h4⟩ := C38_chain hlin crossMat_good (by simp [crossMat]) hn threshold
  exact ⟨net, m', st, mesh, cs, hn, h1, h3, h4,
    (C38_stacked hlin crossMat_good (by simp [crossMat]) hn h1 h3 h4).1⟩

end Fibermat
