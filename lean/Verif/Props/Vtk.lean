import Verif.Lemmas.Vtk
import Verif.Props.Render
import Verif.Props.Pipeline
import Verif.Props.FrameChecks

/-! # C90: the picture of a mat and of its mesh -/

set_option linter.unusedSectionVars false

namespace Fibermat
open Spec
variable {K : Type} [Field K] [LinearOrder K] [IsStrictOrderedRing K]
variable {root : K → K} {cyl : List (K × K × K)}

/-! ## Fibers -/

theorem pointsOf_get {f : Fiber K} {i k : ℕ} {t : K × K × K} (ht : cyl[k]? = some t) :
    ∃ p, (pointsOf root cyl f i)[k]? = some p ∧ Describes f i t p ∧
      p.pos = pvTranslate root (f.x, f.y, f.z) (f.u, f.v, f.w) (t.1 * f.l, t.2.1 * f.b, t.2.2 * f.h) := by
  refine ⟨_, by simp [pointsOf, vtkFiber, ht]; rfl, ⟨rfl, rfl, ?_, rfl, rfl, rfl⟩, rfl⟩
  simp [mul_comm]

theorem centre_cases (f : Fiber K) : ∃ o, Centre f o ∧ ∀ q : V3 K,
    (if vclose (f.x, f.y, f.z) (0, 0, 0) then q else vadd q (f.x, f.y, f.z)) = (q.1 + o.1, q.2.1 + o.2.1, q.2.2 + o.2.2) := by
  by_cases h : vclose (f.x, f.y, f.z) ((0, 0, 0) : V3 K) = true
  · refine ⟨(0, 0, 0), Or.inr ⟨rfl, ?_⟩, ?_⟩
    · have := (vclose_iff _ _).1 h
      simpa using this
    · intro q; simp [h]
  · exact ⟨(f.x, f.y, f.z), Or.inl rfl, fun q => by simp [h, vadd]⟩

/-- C90: the picture of a horizontal fiber.  All its points are placed in the same way: along the axis of the fiber from its centre,
sideways in the plane and vertically, at distances that are the local coordinates attached to the point. -/
theorem C90_flat (hroot : SquareRoot root) {f : Fiber K} (hw : f.w = 0) {n : K} (hn : 0 < n) (hnn : n * n = f.u ^ 2 + f.v ^ 2)
    (i : ℕ) : ∃ (e : K) (o : K × K × K), (e = 1 ∨ e = -1) ∧ Centre f o ∧ ∀ (k : ℕ) (t : K × K × K), cyl[k]? = some t →
      ∃ p, (vtkFiber root cyl f.l f.b f.h f.x f.y f.z f.u f.v f.w f.G f.E i)[k]? = some p ∧ Describes f i t p ∧
        PlacedFlat f n e o t p.pos := by
  obtain ⟨e, he, hfr⟩ := frame_planar hroot hn hnn
  obtain ⟨o, ho, hplace⟩ := centre_cases f
  refine ⟨e, o, he, ho, fun k t ht => ?_⟩
  obtain ⟨p, hp, hd, hpos⟩ := pointsOf_get (root := root) (f := f) (i := i) ht
  refine ⟨p, hp, hd, ?_⟩
  rw [hpos]
  unfold pvTranslate
  rw [hw, hfr]
  simp only
  rw [hplace]
  refine ⟨?_, ?_, ?_⟩ <;> simp only [vadd, vscale] <;> ring

/-- C90: the picture of any fiber has the right size and direction: distances between its points are those of their local
coordinates, and a point is `a` further along the fiber when its first local coordinate is `a` more. -/
theorem C90_rigid (hroot : SquareRoot root) (hsq : ∀ a : K, 0 ≤ a → IsSquare a) {f : Fiber K}
    (hf : 0 < f.u ^ 2 + f.v ^ 2 + f.w ^ 2) (i : ℕ) : ∃ (n : K) (o : K × K × K), 0 < n ∧ n ^ 2 = f.u ^ 2 + f.v ^ 2 + f.w ^ 2 ∧
      Centre f o ∧ ∀ p ∈ vtkFiber root cyl f.l f.b f.h f.x f.y f.z f.u f.v f.w f.G f.E i,
        dist2 p.pos o = dist2 p.xyz (0, 0, 0) ∧ dot3 p.pos p.uvw - dot3 o p.uvw = n * p.xyz.1 ∧
        ∀ q ∈ vtkFiber root cyl f.l f.b f.h f.x f.y f.z f.u f.v f.w f.G f.E i,
          dist2 p.pos q.pos = dist2 p.xyz q.xyz ∧ dot3 p.pos p.uvw - dot3 q.pos p.uvw = n * (p.xyz.1 - q.xyz.1) := by
  obtain ⟨n, x, y, z, hfr, hn, hnn, hx, xx, yy, zz, xy, yz, xz, -⟩ := frame_orthonormal hroot hsq (f.u, f.v, f.w)
    (by unfold dot3; simpa [sq] using hf)
  obtain ⟨o, ho, hplace⟩ := centre_cases f
  have hdx : ∀ a : V3 K, dot3 a (f.u, f.v, f.w) = n * dot3 a x := by
    intro a; rw [hx]; unfold dot3; field_simp
  have hpos : ∀ p ∈ vtkFiber root cyl f.l f.b f.h f.x f.y f.z f.u f.v f.w f.G f.E i, p.uvw = (f.u, f.v, f.w) ∧
      p.pos = (p.xyz.1 * x.1 + (p.xyz.2.1 * y.1 + p.xyz.2.2 * z.1) + o.1,
        p.xyz.1 * x.2.1 + (p.xyz.2.1 * y.2.1 + p.xyz.2.2 * z.2.1) + o.2.1,
        p.xyz.1 * x.2.2 + (p.xyz.2.1 * y.2.2 + p.xyz.2.2 * z.2.2) + o.2.2) := by
    intro p hp
    obtain ⟨t, -, rfl⟩ := List.mem_map.1 hp
    refine ⟨rfl, ?_⟩
    simp only [pvTranslate, hfr, hplace]
    rfl
  -- the isometry, for differences of coordinates
  have iso : ∀ a b c : K, (a * x.1 + (b * y.1 + c * z.1)) ^ 2 + (a * x.2.1 + (b * y.2.1 + c * z.2.1)) ^ 2 +
      (a * x.2.2 + (b * y.2.2 + c * z.2.2)) ^ 2 = a ^ 2 + b ^ 2 + c ^ 2 := by
    intro a b c
    have : (a * x.1 + (b * y.1 + c * z.1)) ^ 2 + (a * x.2.1 + (b * y.2.1 + c * z.2.1)) ^ 2 +
      (a * x.2.2 + (b * y.2.2 + c * z.2.2)) ^ 2 = a ^ 2 * dot3 x x + b ^ 2 * dot3 y y + c ^ 2 * dot3 z z +
        2 * a * b * dot3 x y + 2 * b * c * dot3 y z + 2 * a * c * dot3 x z := by unfold dot3; ring
    rw [this, xx, yy, zz, xy, yz, xz]; ring
  have along : ∀ a b c : K, (a * x.1 + (b * y.1 + c * z.1)) * x.1 + (a * x.2.1 + (b * y.2.1 + c * z.2.1)) * x.2.1 +
      (a * x.2.2 + (b * y.2.2 + c * z.2.2)) * x.2.2 = a := by
    intro a b c
    have : (a * x.1 + (b * y.1 + c * z.1)) * x.1 + (a * x.2.1 + (b * y.2.1 + c * z.2.1)) * x.2.1 +
      (a * x.2.2 + (b * y.2.2 + c * z.2.2)) * x.2.2 = a * dot3 x x + b * dot3 x y + c * dot3 x z := by unfold dot3; ring
    rw [this, xx, xy, xz]; ring
  refine ⟨n, o, hn, ?_, ho, fun p hp => ⟨?_, ?_, fun q hq => ?_⟩⟩
  · have : n * n = f.u * f.u + f.v * f.v + f.w * f.w := hnn
    linarith [this, sq n, sq f.u, sq f.v, sq f.w]
  · obtain ⟨-, e⟩ := hpos p hp
    rw [e]
    unfold dist2
    rw [← sub_eq_zero]
    have := iso p.xyz.1 p.xyz.2.1 p.xyz.2.2
    linear_combination this
  · obtain ⟨e1, e⟩ := hpos p hp
    rw [e1, hdx, hdx, e]
    have := along p.xyz.1 p.xyz.2.1 p.xyz.2.2
    unfold dot3
    linear_combination n * this
  · obtain ⟨e1, e⟩ := hpos p hp
    obtain ⟨e2, e'⟩ := hpos q hq
    constructor
    · rw [e, e']
      unfold dist2
      have := iso (p.xyz.1 - q.xyz.1) (p.xyz.2.1 - q.xyz.2.1) (p.xyz.2.2 - q.xyz.2.2)
      linear_combination this
    · rw [e1, hdx, hdx, e, e']
      have := along (p.xyz.1 - q.xyz.1) (p.xyz.2.1 - q.xyz.2.1) (p.xyz.2.2 - q.xyz.2.2)
      unfold dot3
      linear_combination n * this

/-- C90: the picture of a set of fibers is made of the pictures of the fibers, in order, each with the label and the data of its
fiber; it is refused exactly when the set of fibers is. -/
theorem C90_mat (mat : Mat K) :
    (∀ e, matCheck mat.frame = .error e → vtkMat root cyl (fun _ p => .ok p) mat = .error e) ∧
    (matCheck mat.frame = .ok () → ∃ pts, vtkMat root cyl (fun _ p => .ok p) mat = .ok pts ∧
      pts.length = mat.fibers.length * cyl.length ∧
      ∀ (i : ℕ) (f : Fiber K) (k : ℕ) (t : K × K × K), mat.fibers[i]? = some f → cyl[k]? = some t → ∃ p, pts[i * cyl.length + k]? = some p ∧ Describes f i t p ∧
        (vtkFiber root cyl f.l f.b f.h f.x f.y f.z f.u f.v f.w f.G f.E i)[k]? = some p) := by
  constructor
  · intro e he
    unfold vtkMat
    rw [he]; rfl
  · intro hc
    obtain ⟨pts, h1, h2, h3⟩ := vtkMat_ok (root := root) (cyl := cyl) (func := fun _ p => .ok p) (g := fun _ p => p) hc
      (fun _ _ _ _ _ => rfl)
    refine ⟨pts, h1, h2, fun i f k t hf ht => ?_⟩
    obtain ⟨p, hp, hd, -⟩ := pointsOf_get (root := root) (f := f) (i := i) ht
    refine ⟨p, ?_, hd, hp⟩
    rw [h3 i f k hf (List.getElem?_eq_some_iff.1 ht).1, hp]; rfl

/-! ## Nodes -/

theorem fiber_nodes {rows : List (MeshRow K)} (hs : NodesSorted rows) (i : Int) :
    ∃ first, (rows.zipIdx.filter (fun q => q.1.fiber = i)).map (fun q => q.2) =
        (List.range (rows.zipIdx.filter (fun q => q.1.fiber = i)).length).map (fun k => first + k) ∧
      (∀ j, j < (rows.zipIdx.filter (fun q => q.1.fiber = i)).length → ∃ a, rows[first + j]? = some a ∧ a.fiber = i ∧
        (rows.zipIdx.filter (fun q => q.1.fiber = i))[j]? = some (a, first + j)) ∧
      (∀ a ∈ rows, a.fiber = i → ∃ j, j < (rows.zipIdx.filter (fun q => q.1.fiber = i)).length ∧ rows[first + j]? = some a) := by
  obtain ⟨first, hlab⟩ := filter_consecutive hs i 0
  set L := rows.zipIdx.filter (fun q => decide (q.1.fiber = i)) with hL
  have hget : ∀ j, j < L.length → ∃ a, rows[first + j]? = some a ∧ a.fiber = i ∧ L[j]? = some (a, first + j) := by
    intro j hj
    have h1 : L[j]? = some L[j] := List.getElem?_eq_getElem hj
    have h2 : (L.map (fun q => q.2))[j]? = some (first + j) := by rw [hlab]; simp [hj]
    rw [List.getElem?_map, h1] at h2
    simp only [Option.map_some, Option.some.injEq] at h2
    have hm : L[j] ∈ L := List.getElem_mem hj
    obtain ⟨hm1, hm2⟩ := List.mem_filter.1 hm
    have hm1 := List.mem_zipIdx_iff_getElem?.1 hm1
    rw [h2] at hm1
    refine ⟨L[j].1, hm1, by simpa using hm2, ?_⟩
    rw [h1]; congr 1; exact Prod.ext rfl h2
  refine ⟨first, hlab, hget, ?_⟩
  intro a ha hf
  obtain ⟨q, hq⟩ := List.mem_iff_getElem?.1 ha
  have hm : (a, q) ∈ L := List.mem_filter.2 ⟨List.mem_zipIdx_iff_getElem?.2 hq, by simpa using hf⟩
  obtain ⟨j, hj⟩ := List.mem_iff_getElem?.1 hm
  have hjl := (List.getElem?_eq_some_iff.1 hj).1
  obtain ⟨b, hb, -, hb2⟩ := hget j hjl
  rw [hj] at hb2
  simp only [Option.some.injEq, Prod.mk.injEq] at hb2
  exact ⟨j, hjl, by rw [hb, hb2.1]⟩

theorem nodeField_eq {mesh : Mesh K} (hs : NodesSorted mesh.rows) (nearest : List K → K → ℕ) (i : ℕ) (p : VtkPoint K)
    {f : Fiber K} (hp : |p.xyz.1| ≤ f.l / 2) (hl : 0 < f.l) (hap : Apart mesh.rows)
    (hnear : ∀ (s : List K) (x : K), s ≠ [] → Nearest s x (nearest s x))
    (hsp : (∃ a ∈ mesh.rows, a.fiber = (i : Int) ∧ a.s = -(f.l / 2)) ∧ (∃ a ∈ mesh.rows, a.fiber = (i : Int) ∧ a.s = f.l / 2)) :
    ∃ (j : ℕ) (a b : MeshRow K) (r : K), mesh.rows[j]? = some a ∧ mesh.rows[j + 1]? = some b ∧ a.fiber = (i : Int) ∧
      b.fiber = (i : Int) ∧ a.s < shrink p.xyz.1 ∧ shrink p.xyz.1 ≤ b.s ∧ r = (shrink p.xyz.1 - a.s) / (b.s - a.s) ∧ 0 < r ∧ r ≤ 1 ∧
      nodeField nearest mesh i p = .ok (.fin ((j : K) + r)) := by
  obtain ⟨first, hlab, hget, hmem⟩ := fiber_nodes hs (i : Int)
  obtain ⟨⟨a0, ha0, f0, s0⟩, ⟨a1, ha1, f1, s1⟩⟩ := hsp
  set L := mesh.rows.zipIdx.filter (fun q => decide (q.1.fiber = (i : Int))) with hL
  set s := L.map (fun q => q.1.s) with hsdef
  set x := shrink p.xyz.1 with hx
  have hslen : s.length = L.length := by simp [hsdef]
  have hsget : ∀ j a, L[j]? = some (a, first + j) → s.getD j 0 = a.s := by
    intro j a h
    simp [hsdef, List.getD_eq_getElem?_getD, h]
  have hpair : s.Pairwise (· < ·) := by
    rw [List.pairwise_iff_getElem]
    intro j j' hj hj' hjj
    obtain ⟨a, ra, fa, la⟩ := hget j (by omega)
    obtain ⟨b, rb, fb, lb⟩ := hget j' (by omega)
    have e1 : s[j] = a.s := by rw [← hsget j a la]; simp [List.getD_eq_getElem?_getD, hj]
    have e2 : s[j'] = b.s := by rw [← hsget j' b lb]; simp [List.getD_eq_getElem?_getD, hj']
    rw [e1, e2]
    refine lt_of_le_of_ne (sorted_le hs ra rb (by rw [fa, fb]) (by omega)) fun hne => ?_
    have := hap _ _ a b ra rb (by rw [fa, fb]) hne
    omega
  have hmono : ∀ j j', j ≤ j' → j' < s.length → s.getD j 0 ≤ s.getD j' 0 := by
    intro j j' hjj hj'
    rcases Nat.eq_or_lt_of_le hjj with rfl | h
    · exact le_rfl
    · have := List.pairwise_iff_getElem.1 hpair j j' (by omega) hj' h
      have := this.le
      simpa [List.getD_eq_getElem?_getD, hj', (by omega : j < s.length)] using this
  obtain ⟨j0, hj0, r0⟩ := hmem a0 ha0 f0
  obtain ⟨j1, hj1, r1⟩ := hmem a1 ha1 f1
  have v0 : s.getD j0 0 = a0.s := by
    obtain ⟨a, ra, -, la⟩ := hget j0 hj0
    rw [hsget j0 a la]; rw [r0] at ra; cases ra; rfl
  have v1 : s.getD j1 0 = a1.s := by
    obtain ⟨a, ra, -, la⟩ := hget j1 hj1
    rw [hsget j1 a la]; rw [r1] at ra; cases ra; rfl
  obtain ⟨hx0, hx1⟩ := C56_shrunk hl hp
  have hne : s ≠ [] := by rintro e; rw [e] at hslen; simp at hslen; omega
  have h0 : s.getD 0 0 < x := lt_of_le_of_lt (hmono 0 j0 (Nat.zero_le _) (by omega)) (by rw [v0, s0]; exact hx0)
  have h1 : x ≤ s.getD (s.length - 1) 0 := le_trans hx1.le (by rw [← s1, ← v1]; exact hmono j1 _ (by omega) (by omega))
  obtain ⟨j, r, hj, g1, g2, g3, g4, g5, g6⟩ := C56_locate hpair first (hnear s x hne) h0 h1
  obtain ⟨a, ra, fa, la⟩ := hget j (by omega)
  obtain ⟨b, rb, fb, lb⟩ := hget (j + 1) (by omega)
  rw [hsget _ _ la] at g1 g3
  rw [hsget _ _ lb] at g2 g3
  refine ⟨first + j, a, b, r, ra, rb, fa, fb, g1, g2, g3, g4, g5, ?_⟩
  rw [← g6]
  have hLne : L ≠ [] := by rintro e; rw [e] at hj0; simp at hj0
  unfold nodeField nodeCoord
  simp only [← hL, hLne, if_false, ← hsdef, ← hx, hlab, hslen]

/-! ## Meshes -/

theorem hermiteDeriv_between (y d : List K) {j : ℕ} (hj : j + 1 < y.length) {r : K} (h0 : 0 ≤ r) (h1 : r ≤ 1) :
    hermiteDeriv y d ((j : K) + r) = cubicSlope (y.getD j 0) (y.getD (j + 1) 0) (d.getD j 0) (d.getD (j + 1) 0) r := by
  rcases lt_or_eq_of_le h1 with hlt | rfl
  · have := interval_of hj (t := (j : K) + r) (by linarith) (by linarith)
    unfold hermiteDeriv cubicSlope
    simp only [this]
    ring
  · have e : (j : K) + 1 = ((j + 1 : ℕ) : K) := by push_cast; ring
    rw [e, (C57_nodes y d (by omega) hj).2]
    unfold cubicSlope
    ring

theorem hermiteDeriv2_between (y d : List K) {j : ℕ} (hj : j + 1 < y.length) {r : K} (h0 : 0 ≤ r) (h1 : r < 1) :
    hermiteDeriv2 y d ((j : K) + r) = cubicBend (y.getD j 0) (y.getD (j + 1) 0) (d.getD j 0) (d.getD (j + 1) 0) r := by
  have := interval_of hj (t := (j : K) + r) (by linarith) (by linarith)
  unfold hermiteDeriv2 cubicBend
  simp only [this]
  ring

theorem getD_slopes (d : Option (List K)) (y : List K) (j : ℕ) :
    (d.getD (y.map (fun a => 0 * a))).getD j 0 = nodeValue d j := by
  cases d with
  | some d => rfl
  | none =>
    simp only [Option.getD_none, nodeValue, Option.map_none, zero_mul, List.getD_eq_getElem?_getD, List.getElem?_map]
    cases y[j]? <;> rfl

variable {nearest : List K → K → ℕ} {mat : Mat K} {mesh : Mesh K}

/-- C90: the picture of a mesh.  It is made of the pictures of the fibers, in order; the point at abscissa `X` of a fiber (measured
from its centre, up to the factor 0.9999) gets the node coordinate `j + r` of the place where it is between two nodes `j`, `j + 1` of
the same fiber, and the fields are interpolated between these two nodes. -/
theorem C90_mesh (hnear : ∀ (s : List K) (x : K), s ≠ [] → Nearest s x (nearest s x)) (hcyl : ∀ t ∈ cyl, InUnitBox t)
    (hm : GoodMat mat) (hv : ValidMesh mesh.frame) (hsp : Spans mat mesh.rows) (hap : Apart mesh.rows)
    {y d F M : Option (List K)} (hlen : ∀ l, y = some l ∨ d = some l ∨ F = some l ∨ M = some l → l.length = mesh.rows.length) :
    ∃ pts, vtkMesh root cyl nearest mat mesh y d F M = .ok pts ∧ pts.length = mat.fibers.length * cyl.length ∧
      ∀ (i : ℕ) (f : Fiber K) (k : ℕ) (t : K × K × K), mat.fibers[i]? = some f → cyl[k]? = some t →
        ∃ (p : MeshPoint K) (j : ℕ) (a b : MeshRow K) (r : K), pts[i * cyl.length + k]? = some p ∧
          (vtkFiber root cyl f.l f.b f.h f.x f.y f.z f.u f.v f.w f.G f.E i)[k]? = some p.point ∧
          mesh.rows[j]? = some a ∧ mesh.rows[j + 1]? = some b ∧ a.fiber = (i : Int) ∧ b.fiber = (i : Int) ∧
          a.s < f.l * t.1 * (9999 / 10000) ∧ f.l * t.1 * (9999 / 10000) ≤ b.s ∧
          f.l * t.1 * (9999 / 10000) = (1 - r) * a.s + r * b.s ∧ 0 < r ∧ r ≤ 1 ∧
          p.node = .fin ((j : K) + r) ∧
          p.displacement = y.map (fun y => .fin (cubic (y.getD j 0) (y.getD (j + 1) 0) (nodeValue d j) (nodeValue d (j + 1)) r)) ∧
          p.rotation = y.map (fun y => .fin (cubicSlope (y.getD j 0) (y.getD (j + 1) 0) (nodeValue d j) (nodeValue d (j + 1)) r)) ∧
          (r < 1 → p.curvature =
            y.map (fun y => .fin (cubicBend (y.getD j 0) (y.getD (j + 1) 0) (nodeValue d j) (nodeValue d (j + 1)) r))) ∧
          p.force = F.map (fun F => .fin (cubic (F.getD j 0) (F.getD (j + 1) 0) (nodeValue M j) (nodeValue M (j + 1)) r)) := by
  have hck := (matCheck_frame_iff mat).2 (Or.inr hm)
  have hmk := (C28_meshCheck_iff mesh.frame).2 (Or.inr hv)
  have hs : NodesSorted mesh.rows := by have := hv.sorted; rwa [rows_meshFrame] at this
  obtain ⟨S, -, hgood⟩ := hm.size
  -- the node coordinate of each point
  have node : ∀ (i : ℕ) (f : Fiber K), mat.fibers[i]? = some f → ∀ p ∈ pointsOf root cyl f i,
      ∃ (j : ℕ) (a b : MeshRow K) (r : K), mesh.rows[j]? = some a ∧ mesh.rows[j + 1]? = some b ∧ a.fiber = (i : Int) ∧
        b.fiber = (i : Int) ∧ a.s < shrink p.xyz.1 ∧ shrink p.xyz.1 ≤ b.s ∧ r = (shrink p.xyz.1 - a.s) / (b.s - a.s) ∧ 0 < r ∧ r ≤ 1 ∧
        nodeField nearest mesh i p = .ok (.fin ((j : K) + r)) := by
    intro i f hf p hp
    have hl := (hgood f (List.mem_of_getElem? hf)).l
    obtain ⟨t, ht, rfl⟩ := List.mem_map.1 hp
    refine nodeField_eq hs nearest i _ (f := f) ?_ hl hap hnear (hsp i f hf)
    simp only [abs_mul, abs_of_pos hl]
    have := mul_le_mul_of_nonneg_right (hcyl t ht).1 hl.le
    linarith
  let g : ℕ → VtkPoint K → VtkPoint K × Cell K := fun i p =>
    (p, match nodeField nearest mesh i p with | .ok c => c | .error _ => .nan)
  obtain ⟨pts, h1, h2, h3⟩ := vtkMat_ok (root := root) (cyl := cyl)
    (func := fun i p => do return (p, ← nodeField nearest mesh i p)) (g := g) hck (by
      intro i f hf p hp
      obtain ⟨j, a, b, r, -, -, -, -, -, -, -, -, -, e⟩ := node i f hf p hp
      simp only [g, e]; rfl)
  by_cases hne : mat.fibers = []
  · refine ⟨[], ?_, by simp [hne], ?_⟩
    · unfold vtkMesh
      simp only [bind, Except.bind, pure, Except.pure] at h1
      simp only [hck, hmk, h1, hne, bind, Except.bind, pure, Except.pure, if_true]
    · intro i f k t hf; rw [hne] at hf; simp at hf
  · -- at least two nodes
    have h2n : 2 ≤ mesh.rows.length := by
      obtain ⟨f, l, hfl⟩ := List.exists_cons_of_ne_nil hne
      have hf : mat.fibers[0]? = some f := by rw [hfl]; rfl
      have hl := (hgood f (List.mem_of_getElem? hf)).l
      obtain ⟨⟨a, ha, -, sa⟩, ⟨b, hb, -, sb⟩⟩ := hsp 0 f hf
      obtain ⟨q, hq⟩ := List.mem_iff_getElem?.1 ha
      obtain ⟨q', hq'⟩ := List.mem_iff_getElem?.1 hb
      have hqq : q ≠ q' := by
        rintro rfl
        rw [hq] at hq'; cases hq'
        rw [sa] at sb; linarith
      have := (List.getElem?_eq_some_iff.1 hq).1
      have := (List.getElem?_eq_some_iff.1 hq').1
      omega
    have hspl : ∀ v w : Option (List K), (∀ l, v = some l ∨ w = some l → l.length = mesh.rows.length) →
        (match v with
          | none => (pure () : Except Err Unit)
          | some a => spline mesh.rows.length a (w.getD (a.map (fun b => 0 * b)))) = .ok () := by
      intro v w hl
      cases v with
      | none => rfl
      | some a =>
        simp only [spline]
        rw [if_neg]
        have ha := hl a (Or.inl rfl)
        have hb : (w.getD (a.map (fun b => 0 * b))).length = mesh.rows.length := by
          cases w with
          | none => simpa using ha
          | some w => exact hl w (Or.inr rfl)
        omega
    have s1 := hspl y d (fun l h => hlen l (by tauto))
    have s2 := hspl F M (fun l h => hlen l (by tauto))
    refine ⟨pts.map (addFields y d F M), ?_, by simp [h2], ?_⟩
    · unfold vtkMesh
      simp only [bind, Except.bind, pure, Except.pure] at h1 s1 s2
      simp only [hck, hmk, h1, hne, bind, Except.bind, pure, Except.pure, if_false]
      cases y <;> cases F <;> simp only at s1 s2 <;> simp only [s1, s2]
    · intro i f k t hf ht
      obtain ⟨p, hp, hd, -⟩ := pointsOf_get (root := root) (f := f) (i := i) ht
      obtain ⟨j, a, b, r, ra, rb, fa, fb, ga, gb, hr, hr0, hr1, e⟩ := node i f hf p (List.mem_of_getElem? hp)
      have hx : shrink p.xyz.1 = f.l * t.1 * (9999 / 10000) := by rw [hd.xyz]; rfl
      have hpt : pts[i * cyl.length + k]? = some (p, .fin ((j : K) + r)) := by
        rw [h3 i f k hf (List.getElem?_eq_some_iff.1 ht).1, hp]
        simp only [Option.map_some, g, e]
      rw [hx] at ga gb hr
      have hjl : j + 1 < mesh.rows.length := (List.getElem?_eq_some_iff.1 rb).1
      refine ⟨addFields y d F M (p, .fin ((j : K) + r)), j, a, b, r, by rw [List.getElem?_map, hpt]; rfl, hp, ra, rb, fa, fb, ga, gb, ?_, hr0, hr1, rfl, ?_, ?_, ?_, ?_⟩
      · have : b.s - a.s ≠ 0 := by intro h0; linarith
        rw [hr]; field_simp; ring
      · cases y with
        | none => rfl
        | some y =>
          simp only [addFields, Option.map_some, atNode]
          rw [hermite_between _ _ (by rw [hlen y (by tauto)]; exact hjl) hr0.le hr1, getD_slopes, getD_slopes]
      · cases y with
        | none => rfl
        | some y =>
          simp only [addFields, Option.map_some, atNode]
          rw [hermiteDeriv_between _ _ (by rw [hlen y (by tauto)]; exact hjl) hr0.le hr1, getD_slopes, getD_slopes]
      · intro hr1
        cases y with
        | none => rfl
        | some y =>
          simp only [addFields, Option.map_some, atNode]
          rw [hermiteDeriv2_between _ _ (by rw [hlen y (by tauto)]; exact hjl) hr0.le hr1, getD_slopes, getD_slopes]
      · cases F with
        | none => rfl
        | some F =>
          simp only [addFields, Option.map_some, atNode]
          rw [hermite_between _ _ (by rw [hlen F (by tauto)]; exact hjl) hr0.le hr1, getD_slopes, getD_slopes]

/-! ## The whole chain -/

theorem spans_of_ended {m : Mat K} {net : Net K} (he : Ended net.rows (halfLength m))
    (hall : ∀ (i : ℕ) (f : Fiber K), m.fibers[i]? = some f → ∃ e ∈ net.rows, e.A = (i : Int) ∧ e.B = (i : Int))
    {mesh : Mesh K} (h3 : meshInit net = .ok mesh) : Spans m mesh.rows := by
  intro i f hf
  obtain ⟨e, hmem, hA, hB⟩ := hall i f hf
  obtain ⟨k, hk⟩ := List.mem_iff_getElem?.1 hmem
  obtain ⟨place, hp⟩ := C26_constraints h3
  obtain ⟨a, ha, ea, -⟩ := hp.endA k e hk
  obtain ⟨b, hb, eb, -⟩ := hp.endB k e hk
  obtain ⟨s1, s2⟩ := he.ends e hmem (by rw [hA, hB])
  have hh : halfLength m e.A = f.l / 2 := by simp [halfLength, hA, hf]
  refine ⟨⟨b, List.mem_of_getElem? hb, by rw [eb.fiber, hB], by rw [eb.s, s2, hh]⟩,
    ⟨a, List.mem_of_getElem? ha, by rw [ea.fiber, hA], by rw [ea.s, s1, hh]⟩⟩

/-- C90: the meshes of networks have nodes at both ends of each fiber. -/
theorem C90_net {m : Mat K} (h : GoodMat m) {periodic : Bool} {net : Net K} (hn : netNew m periodic = .ok net) {mesh : Mesh K}
    (hmesh : meshNew net = .ok mesh) : Spans m mesh.rows := by
  have hv : netCheck net.frame = .ok () := by
    obtain ⟨net', h1, -, h3, -⟩ := C06_netNew_ok h periodic
    rw [hn] at h1; cases h1
    exact (C14_netCheck_iff _).2 (Or.inr h3)
  have he := netNew_ended h hn
  obtain ⟨mesh', h1, h2⟩ := meshNew_of_ended hv he
  rw [hmesh] at h1; cases h1
  refine spans_of_ended he (fun i f hf => ?_) h2
  obtain ⟨k, r, hr, hA, hB, -⟩ := C07_end_row h hn hf
  exact ⟨r, List.mem_of_getElem? hr, hA, hB⟩

variable {lp : Linprog K} {m m' : Mat K} {periodic : Bool} {net st : Net K} {threshold : Option K}

/-- C90: so have the meshes of stacked mats; when the fibers are horizontal, the nodes are at the height of their fiber. -/
theorem C90_stack (hlp : GoodLinprog lp) (h : GoodMat m) (hne : m.fibers ≠ []) (hn : netNew m periodic = .ok net)
    (hst : stackNew lp m net threshold = .ok (m', st)) (hmesh : meshNew st = .ok mesh) :
    Spans m' mesh.rows ∧ ((∀ f ∈ m.fibers, f.w = 0) → Level m' mesh.rows) := by
  obtain ⟨net', g1, rfl, hgood, hsame, hend, h3, hvalid, hof, hner⟩ := chain_facts hlp h hne hn hst hmesh
  obtain ⟨p, e, hself⟩ := keep_rows threshold net'
  constructor
  · refine spans_of_ended hend (fun i f hf => ?_) h3
    obtain ⟨k, r, hr, hA, hB, -⟩ := C07_end_row hgood g1 hf
    have hr := List.mem_of_getElem? hr
    exact ⟨r, by rw [e]; exact List.mem_filter.2 ⟨hr, hself r hr (by rw [hA, hB])⟩, hA, hB⟩
  · intro hw
    have hw' := same_planar hsame hw
    obtain ⟨place, hp⟩ := C26_constraints h3
    intro a ha f hf
    obtain ⟨i, ha⟩ := List.mem_iff_getElem?.1 ha
    obtain ⟨k, r, hk, hcase⟩ := placement_cases hp ha
    have hr : r ∈ net'.rows := by
      have := List.mem_of_getElem? hk
      rw [e] at this
      exact (List.mem_filter.1 this).1
    obtain ⟨f1, f2, ⟨q1, q2, hA, hB, hf1, hf2⟩, p1, p2, -⟩ := C08_nodes_on_fibers hgood g1 hr
    have z1 : r.zA = f1.z := by
      have := congrArg (fun q : K × K × K => q.2.2) p1
      simp only [pointAt, hw' f1 (List.mem_of_getElem? hf1)] at this
      simpa using this
    have z2 : r.zB = f2.z := by
      have := congrArg (fun q : K × K × K => q.2.2) p2
      simp only [pointAt, hw' f2 (List.mem_of_getElem? hf2)] at this
      simpa using this
    rcases hcase with ⟨-, ea, -⟩ | ⟨-, ea, -⟩
    · rw [ea.fiber, hA, Int.toNat_natCast, hf1] at hf
      cases hf
      rw [ea.z, z1]
    · rw [ea.fiber, hB, Int.toNat_natCast, hf2] at hf
      cases hf
      rw [ea.z, z2]

/-- A cubic without slopes is between its end values. -/
theorem cubic_flat {y0 y1 r lo hi : K} (h0 : 0 ≤ r) (h1 : r ≤ 1) (l0 : lo ≤ y0) (l1 : lo ≤ y1) (u0 : y0 ≤ hi) (u1 : y1 ≤ hi) :
    lo ≤ cubic y0 y1 0 0 r ∧ cubic y0 y1 0 0 r ≤ hi := by
  have e : cubic y0 y1 0 0 r = (1 - r) ^ 2 * (1 + 2 * r) * y0 + r ^ 2 * (3 - 2 * r) * y1 := by unfold cubic; ring
  have w : (1 - r) ^ 2 * (1 + 2 * r) + r ^ 2 * (3 - 2 * r) = 1 := by ring
  have w0 : 0 ≤ (1 - r) ^ 2 * (1 + 2 * r) := mul_nonneg (sq_nonneg _) (by linarith)
  have w1 : 0 ≤ r ^ 2 * (3 - 2 * r) := mul_nonneg (sq_nonneg _) (by linarith)
  rw [e]
  generalize (1 - r) ^ 2 * (1 + 2 * r) = a at *
  generalize r ^ 2 * (3 - 2 * r) = b at *
  have a1 := mul_le_mul_of_nonneg_left l0 w0
  have a2 := mul_le_mul_of_nonneg_left l1 w1
  have a3 := mul_le_mul_of_nonneg_left u0 w0
  have a4 := mul_le_mul_of_nonneg_left u1 w1
  have hb : b = 1 - a := by linarith
  subst hb
  constructor <;> nlinarith

/-- C90: the picture of a deformed mat of horizontal fibers without rotations stays between the plates (up to `1e-8`), when the nodes
do. -/
theorem C90_between (hroot : SquareRoot root) (hnear : ∀ (s : List K) (x : K), s ≠ [] → Nearest s x (nearest s x))
    (hcyl : ∀ t ∈ cyl, InUnitBox t) (hm : GoodMat mat) (hw : ∀ f ∈ mat.fibers, f.w = 0)
    (hnorm : ∀ f ∈ mat.fibers, IsSquare (f.u ^ 2 + f.v ^ 2)) (hv : ValidMesh mesh.frame) (hsp : Spans mat mesh.rows)
    (hap : Apart mesh.rows) (hlev : Level mat mesh.rows) {u : ℕ → K} {Z : K} (hnp : NonPenetrating mat mesh.rows Z u)
    (hrot : ∀ i, i < mesh.rows.length → u (2 * i + 1) = 0) (F M : Option (List K))
    (hlen : ∀ l, F = some l ∨ M = some l → l.length = mesh.rows.length) :
    ∃ pts, vtkMesh root cyl nearest mat mesh (some ((List.range mesh.rows.length).map (fun i => u (2 * i))))
        (some ((List.range mesh.rows.length).map (fun i => u (2 * i + 1)))) F M = .ok pts ∧
      ∀ p ∈ pts, ∃ z, p.pos.2.2 = .fin z ∧ -(1 / 10 ^ 8) ≤ z ∧ z ≤ Z + 1 / 10 ^ 8 := by
  obtain ⟨pts, h1, h2, h3⟩ := C90_mesh (root := root) hnear hcyl hm hv hsp hap
    (y := some ((List.range mesh.rows.length).map (fun i => u (2 * i))))
    (d := some ((List.range mesh.rows.length).map (fun i => u (2 * i + 1)))) (F := F) (M := M) (by
      rintro l (h | h | h | h)
      · cases h; simp
      · cases h; simp
      · exact hlen l (Or.inl h)
      · exact hlen l (Or.inr h))
  refine ⟨pts, h1, fun p hp => ?_⟩
  obtain ⟨q, hq⟩ := List.mem_iff_getElem?.1 hp
  have hql := (List.getElem?_eq_some_iff.1 hq).1
  rw [h2] at hql
  have hc0 : 0 < cyl.length := by
    rcases Nat.eq_zero_or_pos cyl.length with h | h
    · rw [h, mul_zero] at hql; omega
    · exact h
  have hi : q / cyl.length < mat.fibers.length := Nat.div_lt_of_lt_mul (by rwa [mul_comm])
  have hk : q % cyl.length < cyl.length := Nat.mod_lt _ hc0
  have hf := List.getElem?_eq_getElem hi
  have ht := List.getElem?_eq_getElem hk
  generalize mat.fibers[q / cyl.length] = f at hf
  generalize cyl[q % cyl.length] = t at ht
  obtain ⟨p', j, a, b, r, g1, g2, ra, rb, fa, fb, -, -, -, hr0, hr1, -, hdisp, -⟩ := h3 _ f _ t hf ht
  rw [Nat.div_add_mod', hq] at g1
  cases g1
  have hfm := List.mem_of_getElem? hf
  obtain ⟨S, -, hgood⟩ := hm.size
  have hgf := hgood f hfm
  -- where the point is before the deformation
  obtain ⟨n0, hn0⟩ := hnorm f hfm
  have hnpos : 0 < f.u ^ 2 + f.v ^ 2 := by
    have h5 := hgf.dir1
    rw [hw f hfm] at h5
    have : (0 : K) < (1 - (1 / 10 ^ 5 + 1 / 10 ^ 8)) ^ 2 := by norm_num
    nlinarith
  have hn0' : n0 ≠ 0 := by rintro rfl; rw [hn0] at hnpos; simp at hnpos
  obtain ⟨e, o, he, ho, hpl⟩ := C90_flat (root := root) (cyl := cyl) hroot (hw f hfm) (abs_pos.2 hn0')
    (by rw [abs_mul_abs_self, hn0]) (q / cyl.length)
  obtain ⟨p0, hp0, -, -, -, hz0⟩ := hpl _ t ht
  rw [g2] at hp0; cases hp0
  have hoz : |o.2.2 - f.z| ≤ 1 / 10 ^ 8 := by
    rcases ho with rfl | ⟨rfl, -, -, h⟩
    · simp
    · simpa using h
  have hloc : |e * (f.h * t.2.2)| ≤ f.h / 2 := by
    have : |e| = 1 := by rcases he with rfl | rfl <;> simp
    rw [abs_mul, this, one_mul, abs_mul, abs_of_pos hgf.h]
    have := mul_le_mul_of_nonneg_left (hcyl t (List.mem_of_getElem? ht)).2.2 hgf.h.le
    linarith
  -- the two nodes
  have hjl : j + 1 < mesh.rows.length := (List.getElem?_eq_some_iff.1 rb).1
  have hva : nodeHeight mesh.rows j = f.z ∧ nodeThick mat mesh.rows j = f.h := by
    have := hlev a (List.mem_of_getElem? ra) f (by rw [fa]; exact hf)
    constructor
    · simp [nodeHeight, ra, this]
    · simp only [nodeThick, ra, fa, Option.bind_some, Int.toNat_natCast, hf, Option.map_some, Option.getD_some]
  have hvb : nodeHeight mesh.rows (j + 1) = f.z ∧ nodeThick mat mesh.rows (j + 1) = f.h := by
    have := hlev b (List.mem_of_getElem? rb) f (by rw [fb]; exact hf)
    constructor
    · simp [nodeHeight, rb, this]
    · simp only [nodeThick, rb, fb, Option.bind_some, Int.toNat_natCast, hf, Option.map_some, Option.getD_some]
  have a1 := hnp.floor j (by omega)
  have a2 := hnp.roof j (by omega)
  have b1 := hnp.floor (j + 1) hjl
  have b2 := hnp.roof (j + 1) hjl
  rw [hva.1, hva.2] at a1 a2
  rw [hvb.1, hvb.2] at b1 b2
  have d0 : nodeValue (some ((List.range mesh.rows.length).map (fun i => u (2 * i + 1)))) j = 0 := by
    simp [nodeValue, List.getD_eq_getElem?_getD, (by omega : j < mesh.rows.length), hrot j (by omega)]
  have d1 : nodeValue (some ((List.range mesh.rows.length).map (fun i => u (2 * i + 1)))) (j + 1) = 0 := by
    simp [nodeValue, List.getD_eq_getElem?_getD, hjl, hrot (j + 1) hjl]
  have y0 : ((List.range mesh.rows.length).map (fun i => u (2 * i))).getD j 0 = u (2 * j) := by
    simp [List.getD_eq_getElem?_getD, (by omega : j < mesh.rows.length)]
  have y1 : ((List.range mesh.rows.length).map (fun i => u (2 * i))).getD (j + 1) 0 = u (2 * (j + 1)) := by
    simp [List.getD_eq_getElem?_getD, hjl]
  rw [d0, d1, Option.map_some, y0, y1] at hdisp
  obtain ⟨c1, c2⟩ := cubic_flat (lo := f.h / 2 - f.z) (hi := Z - f.h / 2 - f.z) (y0 := u (2 * j)) (y1 := u (2 * (j + 1))) hr0.le hr1
    (by linarith) (by linarith) (by linarith) (by linarith)
  refine ⟨p.point.pos.2.2 + cubic (u (2 * j)) (u (2 * (j + 1))) 0 0 r, ?_, ?_, ?_⟩
  · unfold MeshPoint.pos
    rw [hdisp]
    rfl
  · rw [hz0]
    have := (abs_le.1 hoz).1
    have := (abs_le.1 hloc).1
    linarith
  · rw [hz0]
    have := (abs_le.1 hoz).2
    have := (abs_le.1 hloc).2
    linarith

theorem onBeam_next {rows : List (MeshRow K)} (hb : BeamsCyclic rows) {j : ℕ} {a b : MeshRow K} (ra : rows[j]? = some a)
    (rb : rows[j + 1]? = some b) (hf : a.fiber = b.fiber) : OnBeam rows j ∧ OnBeam rows (j + 1) := by
  obtain ⟨k, hk, r, p, hr, hp, -, h⟩ := hb j a ra
  have hkj : k = j + 1 := by
    rcases h with ⟨-, h⟩ | ⟨⟨r', hr', h⟩, -⟩
    · exact h
    · rw [ra] at hr'; cases hr'
      exact absurd hf.symm (h (j + 1) b (by omega) rb)
  subst hkj
  have hs : StartsBeam rows j := ⟨a, ra, by rw [hk]; push_cast; omega⟩
  refine ⟨Or.inl hs, Or.inr ⟨j, hs, ?_⟩⟩
  simp [succNode, ra, hk]

/-- Each node of a mesh spanning its fibers is on a beam. -/
theorem onBeam_of_spans (hv : ValidMesh mesh.frame) (hsp : Spans mat mesh.rows) (hm : GoodMat mat)
    (hof : OverFibers mat mesh.rows) (i : ℕ) (hi : i < mesh.rows.length) : OnBeam mesh.rows i := by
  have hs : NodesSorted mesh.rows := by have := hv.sorted; rwa [rows_meshFrame] at this
  have hb : BeamsCyclic mesh.rows := by have := hv.beams; rwa [rows_meshFrame] at this
  have ra := List.getElem?_eq_getElem hi
  generalize mesh.rows[i] = a at ra
  obtain ⟨o1, o2⟩ := hof a (List.mem_of_getElem? ra)
  have hfl : a.fiber.toNat < mat.fibers.length := by omega
  have hf := List.getElem?_eq_getElem hfl
  generalize mat.fibers[a.fiber.toNat] = f at hf
  obtain ⟨S, -, hgood⟩ := hm.size
  have hl := (hgood f (List.mem_of_getElem? hf)).l
  obtain ⟨⟨b, hb1, fb, sb⟩, ⟨c, hc1, fc, sc⟩⟩ := hsp _ f hf
  rw [Int.toNat_of_nonneg o1] at fb fc
  obtain ⟨q, hq⟩ := List.mem_iff_getElem?.1 hb1
  obtain ⟨q', hq'⟩ := List.mem_iff_getElem?.1 hc1
  have hqq : q < q' := sorted_lt hs hq hq' (by rw [fb, fc]) (by rw [sb, sc]; linarith)
  -- nodes between two nodes of a fiber are on it
  have hmid : ∀ (j k l : ℕ) (x y z : MeshRow K), j ≤ k → k ≤ l → mesh.rows[j]? = some x → mesh.rows[k]? = some y →
      mesh.rows[l]? = some z → x.fiber = z.fiber → y.fiber = x.fiber := by
    intro j k l x y z hjk hkl hx hy hz hxz
    obtain ⟨hj, rfl⟩ := List.getElem?_eq_some_iff.1 hx
    obtain ⟨hk, rfl⟩ := List.getElem?_eq_some_iff.1 hy
    obtain ⟨hl, rfl⟩ := List.getElem?_eq_some_iff.1 hz
    have h1 : mesh.rows[j].fiber ≤ mesh.rows[k].fiber := by
      rcases Nat.eq_or_lt_of_le hjk with rfl | h
      · exact le_rfl
      · rcases List.pairwise_iff_getElem.1 hs j k hj hk h with h | ⟨h, -⟩ <;> omega
    have h2 : mesh.rows[k].fiber ≤ mesh.rows[l].fiber := by
      rcases Nat.eq_or_lt_of_le hkl with rfl | h
      · exact le_rfl
      · rcases List.pairwise_iff_getElem.1 hs k l hk hl h with h | ⟨h, -⟩ <;> omega
    omega
  rcases Nat.lt_or_ge i q' with h | h
  · have hl := (List.getElem?_eq_some_iff.1 hq').1
    have hn := List.getElem?_eq_getElem (show i + 1 < mesh.rows.length by omega)
    exact (onBeam_next hb ra hn (hmid i (i + 1) q' _ _ _ (by omega) (by omega) ra hn hq' (by rw [fc])).symm).1
  · obtain ⟨k, rfl⟩ : ∃ k, i = k + 1 := ⟨i - 1, by omega⟩
    have hn := List.getElem?_eq_getElem (show k < mesh.rows.length by omega)
    have := hmid q k (k + 1) _ _ _ (by omega) (by omega) hq hn ra (by rw [fb])
    exact (onBeam_next hb hn ra (by rw [this, fb])).2

variable {lmin lmax : Option K} {coupling : K} {o : Opts K} {perm : Option (List ℕ)} {S : Sys K} {recs : List (Rec K)} {stop : Stop}

/-- C90: the picture of a compressed mat of horizontal, inextensible fibers stays between the plates, at every recorded state. -/
theorem C90_plates (hroot : SquareRoot root) (hnear : ∀ (s : List K) (x : K), s ≠ [] → Nearest s x (nearest s x))
    (hcyl : ∀ t ∈ cyl, InUnitBox t) (hlp : GoodLinprog lp) (h : GoodMat m) (hw : ∀ f ∈ m.fibers, f.w = 0)
    (hE : ∀ f ∈ m.fibers, f.E = ⊤) (hnorm : ∀ f ∈ m.fibers, IsSquare (f.u ^ 2 + f.v ^ 2))
    (hn : netNew m periodic = .ok net) (hst : stackNew lp m net threshold = .ok (m', st))
    (hmesh : meshNew st = .ok mesh) (hs : solve m' mesh lmin lmax coupling o perm = .ok (S, recs, stop))
    (hap : Apart mesh.rows)
    (hp : PositiveLengths mesh.rows lmin lmax) (htol : 0 ≤ o.tol) (hlin : ExactLin o.lin) (hperm : PermOf S.n perm)
    (k : ℕ) (a : Rec K) (ha : recs[k]? = some a) (F M : Option (List K))
    (hlen : ∀ l, F = some l ∨ M = some l → l.length = mesh.rows.length) :
    ∃ pts, vtkMesh root cyl nearest m' mesh (some ((List.range mesh.rows.length).map (fun i => a.x (2 * i))))
        (some ((List.range mesh.rows.length).map (fun i => a.x (2 * i + 1)))) F M = .ok pts ∧
      ∀ p ∈ pts, ∃ z, p.pos.2.2 = .fin z ∧ -(1 / 10 ^ 8) ≤ z ∧ z ≤ a.Z + 1 / 10 ^ 8 := by
  have hne := chain_nonempty hlp h hn hst hmesh hs
  obtain ⟨hsp, hlev⟩ := C90_stack hlp h hne hn hst hmesh
  obtain ⟨hnp, -⟩ := C78_nonPenetrating hlp h hw hn hst hmesh hs hp htol hlin hperm k a ha
  obtain ⟨net', g1, rfl, hgood, hsame, hend, h3, hvalid, hof, hner⟩ := chain_facts hlp h hne hn hst hmesh
  have hE' := same_tensile hsame hE
  have hnorm' : ∀ f ∈ m'.fibers, IsSquare (f.u ^ 2 + f.v ^ 2) := by
    intro f hf
    have := List.mem_map_of_mem (f := fun f : Fiber K => { f with z := 0 }) hf
    rw [← hsame.2] at this
    obtain ⟨g, hg, e⟩ := List.mem_map.1 this
    have e1 : g.u = f.u := (Fiber.mk.inj e).2.2.2.2.2.2.1
    have e2 : g.v = f.v := (Fiber.mk.inj e).2.2.2.2.2.2.2.1
    rw [← e1, ← e2]; exact hnorm g hg
  refine C90_between hroot hnear hcyl hgood (same_planar hsame hw) hnorm' hvalid hsp hap (hlev hw) hnp ?_ F M hlen
  intro i hi
  have ra := List.getElem?_eq_getElem hi
  generalize mesh.rows[i] = r at ra
  obtain ⟨o1, o2⟩ := hof r (List.mem_of_getElem? ra)
  have hf := List.getElem?_eq_getElem (show r.fiber.toNat < m'.fibers.length by omega)
  exact C49_rotations hs hgood hvalid hp ra hf (hE' _ (List.mem_of_getElem? hf)) (onBeam_of_spans hvalid hsp hgood hof i hi) k a ha

end Fibermat
