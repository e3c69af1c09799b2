import Verif.Spec.OpenBox
import Verif.Model.Chain
import Verif.Props.Stack
import Verif.Lemmas.RelabelNet

/-! # C119: a mat in an open box and in a periodic box -/

set_option linter.unusedSectionVars false

namespace Fibermat
open Spec
variable {K : Type} [Field K] [LinearOrder K] [IsStrictOrderedRing K]

/-! ### The network -/

/-- Among the candidates of two labels the pair of original fibers comes first. -/
theorem base_first {S : K} {fs : List (Fiber K)} {a b : ℕ} {f g : Fiber K} (hab : a < b) (hf : fs[a]? = some f) (hg : fs[b]? = some g)
    {c : Cand K} (hc : candidate ((a, f), (b, g)) = some c) (periodic : Bool) : c ∈ netCands periodic S fs := by
  have hk : candKey c = (a, b) := by
    rcases candidate_key_labels hc with ⟨h1, h2, -⟩ | ⟨-, -, h⟩
    · simp [candKey, h1, h2]
    · simp only at h
      omega
  unfold netCands
  rw [mem_sortDedup, hk, cands_of_labels, plain_filter_two hab hf hg]
  have hext : ∃ rest, extOf periodic S (maxLength fs) [(a, f), (b, g)] = (a, f) :: (b, g) :: rest := by
    unfold extOf
    cases periodic
    · exact ⟨[], rfl⟩
    · simp only [if_true, List.cons_append, List.nil_append]
      exact ⟨_, rfl⟩
  obtain ⟨rest, hext⟩ := hext
  rw [hext]
  simp only [triu, List.map_cons, List.cons_append]
  rw [List.filterMap_cons]
  cases hs : candidate ((a, f), (a, f)) with
  | none =>
    simp only
    rw [List.filterMap_cons, hc]
    simp only
    rw [List.filter_cons_of_pos (by simp [hk]), List.head?_cons]
  | some d =>
    simp only
    have hd : candKey d ≠ (a, b) := by
      rcases candidate_key_labels hs with ⟨h1, h2, -⟩ | ⟨-, -, h⟩
      · simp only at h1 h2
        simp [candKey, h1, h2]
        omega
      · simp only at h
        omega
    rw [List.filter_cons_of_neg (by simpa using hd), List.filterMap_cons, hc]
    simp only
    rw [List.filter_cons_of_pos (by simp [hk]), List.head?_cons]

/-- C119: every connection of the open box, with its place on the two fibers, is a connection of the periodic box, whatever the lengths
and directions of the fibers. -/
theorem C119_rows {m : Mat K} (h : GoodMat m) {net net' : Net K} (hn : netNew m false = .ok net) (hn' : netNew m true = .ok net') :
    net.rows.Sublist net'.rows := by
  have hsub : net.rows ⊆ net'.rows := by
    intro r hr
    obtain ⟨S, hS, -, rfl⟩ := netNew_ok h hn
    obtain ⟨S', hS', -, rfl⟩ := netNew_ok h hn'
    rw [hS] at hS'; cases hS'
    obtain ⟨c, hc, rfl⟩ := List.mem_map.1 hr
    refine List.mem_map_of_mem ?_
    rcases netCands_mem (goodMat_pos h) hc with ⟨a, b, f, g, i, j, i', j', hab, hf, hg, hper, hcand⟩ | ⟨a, f, hf, rfl⟩
    · obtain ⟨rfl, rfl, rfl, rfl⟩ := hper rfl
      rw [shiftFiber_zero, shiftFiber_zero] at hcand
      exact base_first hab hf hg hcand true
    · exact netCands_ends (goodMat_pos h) hf
  have : Std.Antisymm (fun r q : NetRow K => r.A < q.A ∨ (r.A = q.A ∧ r.B < q.B)) := ⟨fun r q h1 h2 => by omega⟩
  have hinc := C06_increasing h hn
  have hnd : net.rows.Nodup := hinc.imp (fun {r q} h e => by subst e; omega)
  exact List.sublist_of_subperm_of_pairwise (List.subperm_of_subset hnd hsub) hinc (C06_increasing h hn')

theorem row_eq_of_labels {m : Mat K} (h : GoodMat m) {periodic : Bool} {net : Net K} (hn : netNew m periodic = .ok net) {r q : NetRow K}
    (hr : r ∈ net.rows) (hq : q ∈ net.rows) (hA : r.A = q.A) (hB : r.B = q.B) : r = q := by
  by_contra hne
  obtain ⟨i, hi, rfl⟩ := List.mem_iff_getElem.1 hr
  obtain ⟨j, hj, rfl⟩ := List.mem_iff_getElem.1 hq
  have hp := List.pairwise_iff_getElem.1 (C06_increasing h hn)
  rcases lt_trichotomy i j with hij | rfl | hij
  · have := hp i j hi hj hij
    omega
  · exact hne rfl
  · have := hp j i hj hi hij
    omega

/-- C119: when every fiber lies inside the box, both networks have the same rows. -/
theorem C119_inside {m : Mat K} (h : GoodMat m) {S : K} (hS : m.attrs.size = some S) (hp : ∀ f ∈ m.fibers, Planar f)
    (hin : ∀ f ∈ m.fibers, InsideBox S f) {net net' : Net K} (hn : netNew m false = .ok net) (hn' : netNew m true = .ok net') :
    net.rows = net'.rows := by
  have hsub := C119_rows h hn hn'
  refine hsub.eq_of_length_le ?_
  have hnd : net'.rows.Nodup := (C06_increasing h hn').imp (fun {r q} h e => by subst e; omega)
  refine (List.subperm_of_subset hnd ?_).length_le
  intro r hr
  obtain ⟨f, g, hj, -⟩ := C08_nodes_on_fibers h hn' hr
  have hlab := C06_labels h hn' r hr
  rcases lt_or_eq_of_le hlab.2.1 with hlt | heq
  · obtain ⟨hnp, i, j, -, hc⟩ := row_cross h hS (fun f hf => (hp f hf).1) hn' hr hlt hj
    obtain ⟨a, b, hA, hB, hf, hg⟩ := hj
    obtain ⟨fx, fy⟩ := hin f (List.mem_of_getElem? hf) r.sA hc.1
    obtain ⟨gx, gy⟩ := hin g (List.mem_of_getElem? hg) r.sB hc.2.1
    have hS0 : 0 < S := by linarith [abs_nonneg (f.x + r.sA * f.u)]
    rw [abs_lt] at fx fy gx gy
    have small : ∀ k : ℤ, -S < k * S → k * S < S → k = 0 := by
      intro k h1 h2
      have h3 : (-1 : K) < k := by
        by_contra hk
        nlinarith [not_lt.1 hk]
      have h4 : (k : K) < 1 := by
        by_contra hk
        nlinarith [not_lt.1 hk]
      have h3 : -1 < k := by exact_mod_cast h3
      have h4 : k < 1 := by exact_mod_cast h4
      omega
    obtain ⟨hs, ht, e1, e2⟩ := hc
    obtain rfl := small i (by linarith) (by linarith)
    obtain rfl := small j (by linarith) (by linarith)
    obtain ⟨q, hq, qA, qB, -⟩ := C10_crossing_is_row h hp hn (by omega) hf hg hnp (s := r.sA) (t := r.sB)
      ⟨hs, ht, by simpa using e1, by simpa using e2⟩
    have := row_eq_of_labels h hn' (hsub.subset hq) hr (by omega) (by omega)
    rwa [← this]
  · obtain ⟨a, b, hA, hB, hf, hg⟩ := hj
    obtain ⟨k, q, hq, qA, qB, -⟩ := C07_end_row h hn hf
    have hq := List.mem_of_getElem? hq
    have := row_eq_of_labels h hn' (hsub.subset hq) hr (by omega) (by omega)
    rwa [← this]

/-! ### The stack and the mesh -/

/-- C119: no fiber is put higher in the open box than in the periodic box. -/
theorem C119_heights {lin lin' : Linprog K} (hlin : GoodLinprog lin) (hlin' : GoodLinprog lin') {m : Mat K} (h : GoodMat m)
    {net net' : Net K} (hn : netNew m false = .ok net) (hn' : netNew m true = .ok net') {t t' : Option K} {m1 m2 : Mat K} {st st' : Net K}
    (hst : stackNew lin m net t = .ok (m1, st)) (hst' : stackNew lin' m net' t' = .ok (m2, st')) {i : ℕ} (hi : i < m.fibers.length) :
    heightOf m1 i ≤ heightOf m2 i := by
  obtain ⟨c1, o1, -⟩ := netNew_over h hn
  obtain ⟨c2, o2, -⟩ := netNew_over h hn'
  obtain ⟨-, hlow1, -⟩ := stack_lowest hlin h c1 o1 hst
  obtain ⟨-, hlow2, -⟩ := stack_lowest hlin' h c2 o2 hst'
  exact hlow1.2 _ ⟨hlow2.1.floor, fun r hr hlt => hlow2.1.gap r ((C119_rows h hn hn').subset hr) hlt⟩ i hi

/-- C119: the mesh of the open box has at most as many nodes, without threshold. -/
theorem C119_nodes {lin lin' : Linprog K} (hlin : GoodLinprog lin) (hlin' : GoodLinprog lin') {m : Mat K} (h : GoodMat m)
    (hw : ∀ f ∈ m.fibers, f.w = 0) {net net' : Net K} (hn : netNew m false = .ok net) (hn' : netNew m true = .ok net') {m1 m2 : Mat K}
    {st st' : Net K} (hst : stackNew lin m net none = .ok (m1, st)) (hst' : stackNew lin' m net' none = .ok (m2, st')) {mesh mesh' : Mesh K}
    (hm : meshInit st = .ok mesh) (hm' : meshInit st' = .ok mesh') : mesh.rows.length ≤ mesh'.rows.length := by
  obtain ⟨-, -, e1, -⟩ := C18_vertical hlin h hw hn hst
  obtain ⟨-, -, e2, -⟩ := C18_vertical hlin' h hw hn' hst'
  have e1 := congrArg List.length e1
  have e2 := congrArg List.length e2
  simp only [planColumns, List.length_map] at e1 e2
  rw [(C23_mesh_nodes hm).1, (C23_mesh_nodes hm').1, e1, e2]
  have := (C119_rows h hn hn').length_le
  omega

/-! ### The compression of a mat inside the box -/

/-- The same net with another value of the attribute `periodic`. -/
def Net.flag (net : Net K) (b : Bool) : Net K := { net with attrs := { net.attrs with periodic := some b } }

theorem netCheck_flag {net : Net K} {c : Bool} (h : net.attrs.periodic = some c) (b : Bool) : netCheck (net.flag b).frame = netCheck net.frame := by
  obtain ⟨rows, ⟨n, size, per, skip⟩⟩ := net
  simp only at h
  subst h
  cases n <;> cases size <;> rfl

theorem stackSolve_flag (lp : Linprog K) (m : Mat K) {net : Net K} {c : Bool} (h : net.attrs.periodic = some c) (b : Bool) :
    stackSolve lp m (net.flag b) = stackSolve lp m net := by
  unfold stackSolve stackConstraint
  rw [netCheck_flag h]
  rfl

theorem insideBox_setZ {m : Mat K} {S : K} (hp : ∀ f ∈ m.fibers, Planar f) (hin : ∀ f ∈ m.fibers, InsideBox S f) {z : List K}
    (hl : z.length = m.fibers.length) : ∀ f ∈ (m.setZ z).fibers, Planar f ∧ InsideBox S f := by
  intro f hf
  obtain ⟨i, hi⟩ := List.mem_iff_getElem?.1 hf
  obtain ⟨g, hg, rfl⟩ := setZ_get_inv hl hi
  exact ⟨hp g (List.mem_of_getElem? hg), hin g (List.mem_of_getElem? hg)⟩

theorem netNew_flag {m : Mat K} (h : GoodMat m) {S : K} (hS : m.attrs.size = some S) (hp : ∀ f ∈ m.fibers, Planar f)
    (hin : ∀ f ∈ m.fibers, InsideBox S f) : ∃ net, netNew m false = .ok net ∧ netNew m true = .ok (net.flag true) ∧
      net.attrs.periodic = some false := by
  have e1 := netNew_eq h hS false
  have e2 := netNew_eq h hS true
  have := C119_inside h hS hp hin e1 e2
  refine ⟨_, e1, ?_, rfl⟩
  rw [e2]
  simp only at this
  simp only [Net.flag, this]

theorem meshNew_flag {net : Net K} {c : Bool} (h : net.attrs.periodic = some c) (b : Bool) :
    meshNew (net.flag b) = (meshNew net).map (fun mesh => { mesh with attrs := { mesh.attrs with periodic := some b } }) := by
  unfold meshNew meshInit
  rw [netCheck_flag h]
  cases netCheck net.frame with
  | error e => rfl
  | ok _ =>
    simp only [Bind.bind, Except.bind, pure, Except.pure]
    have : meshCheck (Mesh.frame { rows := meshRows (net.flag b).rows, attrs := (net.flag b).attrs }) =
        meshCheck (Mesh.frame { rows := meshRows net.rows, attrs := net.attrs }) := by
      obtain ⟨rows, ⟨n, size, per, skip⟩⟩ := net
      simp only at h
      subst h
      cases n <;> cases size <;> rfl
    rw [this]
    cases meshCheck (Mesh.frame { rows := meshRows net.rows, attrs := net.attrs }) with
    | error e => rfl
    | ok _ => rfl

theorem meshNew_attrs {net : Net K} {mesh : Mesh K} (h : meshNew net = .ok mesh) : mesh.attrs = net.attrs := by
  unfold meshNew meshInit at h
  simp only [Bind.bind, Except.bind, pure, Except.pure] at h
  cases h1 : netCheck net.frame with
  | error e => rw [h1] at h; cases h
  | ok _ =>
    rw [h1] at h
    simp only at h
    cases h2 : meshCheck (Mesh.frame { rows := meshRows net.rows, attrs := net.attrs }) with
    | error e => rw [h2] at h; cases h
    | ok _ => rw [h2] at h; cases h; rfl

theorem meshCheck_flag {mesh : Mesh K} {c : Bool} (h : mesh.attrs.periodic = some c) (b : Bool) :
    meshCheck (Mesh.frame { mesh with attrs := { mesh.attrs with periodic := some b } }) = meshCheck mesh.frame := by
  obtain ⟨rows, ⟨n, size, per, skip⟩⟩ := mesh
  simp only at h
  subst h
  cases n <;> cases size <;> rfl

theorem solve_flag (m : Mat K) {mesh : Mesh K} {c : Bool} (h : mesh.attrs.periodic = some c) (b : Bool) (lmin lmax : Option K) (coupling : K)
    (o : Opts K) (perm : Option (List ℕ)) :
    solve m { mesh with attrs := { mesh.attrs with periodic := some b } } lmin lmax coupling o perm = solve m mesh lmin lmax coupling o perm := by
  have hK : stiffness m { mesh with attrs := { mesh.attrs with periodic := some b } } lmin lmax coupling = stiffness m mesh lmin lmax coupling := by
    unfold stiffness
    rw [meshCheck_flag h]
  have hC : constraint m { mesh with attrs := { mesh.attrs with periodic := some b } } =
      (constraint m mesh).map (fun cs => { cs with mesh := { cs.mesh with attrs := { mesh.attrs with periodic := some b } } }) := by
    unfold constraint
    rw [meshCheck_flag h]
    cases matCheck m.frame with
    | error e => rfl
    | ok _ =>
      simp only [Bind.bind, Except.bind]
      cases meshCheck mesh.frame with
      | error e => rfl
      | ok _ =>
        simp only
        cases nodeThickness m mesh.rows with
        | error e => rfl
        | ok hh =>
          simp only
          cases contacts mesh.rows hh with
          | error e => rfl
          | ok cs =>
            simp only
            cases npMax ((mesh.rows.zip hh).map (fun p => p.1.z + p.2 / 2)) with
            | error e => rfl
            | ok Z => rfl
  unfold solve
  rw [hK, hC]
  cases stiffness m mesh lmin lmax coupling with
  | error e => rfl
  | ok Km =>
    simp only [Bind.bind, Except.bind]
    cases constraint m mesh with
    | error e => rfl
    | ok cs => rfl

theorem stackNew_flag {m : Mat K} (h : GoodMat m) {S : K} (hS : m.attrs.size = some S) (hp : ∀ f ∈ m.fibers, Planar f)
    (hin : ∀ f ∈ m.fibers, InsideBox S f) (lp : Linprog K) {net : Net K} (hper : net.attrs.periodic = some false) (threshold : Option K) :
    stackNew lp m (net.flag true) threshold = (stackNew lp m net threshold).map (fun r => (r.1, r.2.flag true)) ∧
      ∀ r, stackNew lp m net threshold = .ok r → r.2.attrs.periodic = some false := by
  unfold stackNew
  rw [netCheck_flag hper, stackSolve_flag lp m hper, hper]
  simp only [Bind.bind, Except.bind, Net.flag, Option.getD_some]
  cases matCheck m.frame with
  | error e => exact ⟨rfl, fun r hr => by cases hr⟩
  | ok _ =>
    simp only
    cases hck : netCheck net.frame with
    | error e => exact ⟨rfl, fun r hr => by cases hr⟩
    | ok _ =>
      simp only
      cases stackSolve lp m net with
      | error e => exact ⟨rfl, fun r hr => by cases hr⟩
      | ok z =>
        rcases z with _ | _ | z
        · simp only [pure, Except.pure]
          exact ⟨rfl, fun r hr => by cases hr; exact hper⟩
        · exact ⟨rfl, fun r hr => by cases hr⟩
        · simp only
          by_cases hl : z.length = m.fibers.length
          · have hg := setZ_good h hl
            have hpi := insideBox_setZ hp hin hl
            obtain ⟨net', e1, e2, e3⟩ := netNew_flag hg (S := S) (by rw [setZ_attrs, hS]) (fun f hf => (hpi f hf).1) (fun f hf => (hpi f hf).2)
            rw [if_neg (by simpa using hl), if_neg (by simpa using hl), e1, e2]
            simp only [pure, Except.pure]
            cases threshold with
            | none =>
              simp only
              rw [netCheck_flag e3]
              cases netCheck net'.frame with
              | error e => exact ⟨rfl, fun r hr => by cases hr⟩
              | ok _ => exact ⟨rfl, fun r hr => by cases hr; exact e3⟩
            | some t =>
              simp only
              have : netCheck (Net.frame { net'.flag true with rows := thresholdRows t (net'.flag true).rows }) =
                  netCheck (Net.frame { net' with rows := thresholdRows t net'.rows }) :=
                netCheck_flag (net := { net' with rows := thresholdRows t net'.rows }) e3 true
              rw [this]
              cases netCheck (Net.frame { net' with rows := thresholdRows t net'.rows }) with
              | error e => exact ⟨rfl, fun r hr => by cases hr⟩
              | ok _ => exact ⟨rfl, fun r hr => by cases hr; exact e3⟩
          · rw [if_pos (by simpa using hl), if_pos (by simpa using hl)]
            exact ⟨rfl, fun r hr => by cases hr⟩

/-- C119: a mat whose fibers lie inside the box is stacked and compressed in the same way in an open box and in a periodic one. -/
theorem C119_run {m : Mat K} (h : GoodMat m) {S : K} (hS : m.attrs.size = some S) (hp : ∀ f ∈ m.fibers, Planar f)
    (hin : ∀ f ∈ m.fibers, InsideBox S f) (lp : Linprog K) (threshold lmin lmax : Option K) (coupling : K) (o : Opts K)
    (perm : Option (List ℕ)) :
    chain lp false threshold lmin lmax coupling o perm m = chain lp true threshold lmin lmax coupling o perm m := by
  obtain ⟨net, h1, h2, h3⟩ := netNew_flag h hS hp hin
  obtain ⟨e, hflag⟩ := stackNew_flag h hS hp hin lp h3 threshold
  unfold chain
  rw [h1, h2]
  simp only [Bind.bind, Except.bind]
  rw [e]
  cases hst : stackNew lp m net threshold with
  | error e => rfl
  | ok r =>
    have hr := hflag r hst
    simp only [Except.map]
    rw [meshNew_flag hr]
    cases hm : meshNew r.2 with
    | error e => rfl
    | ok mesh =>
      simp only [Except.map]
      refine (solve_flag _ (c := false) ?_ _ _ _ _ _ _).symm
      have := meshNew_attrs hm
      rw [this, hr]

end Fibermat
