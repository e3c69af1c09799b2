import Verif.Props.Crossing
import Verif.Props.Pipeline
import Verif.Lemmas.ScaleAssembly
import Verif.Model.Chain

/-! # The result does not depend on the frame of reference in the plane (C80) -/

set_option linter.unusedSectionVars false

namespace Fibermat
variable {K : Type} [Field K] [LinearOrder K] [IsStrictOrderedRing K]
open Spec

theorem sameIn_one {f f' : Fiber K} (h : SameButPlace f f') : SameIn 1 1 f f' := by
  refine ⟨by rw [h.l, one_mul], by rw [h.b, one_mul], by rw [h.h, one_mul], by rw [h.z, one_mul], h.w, by rw [h.G, one_mul], ?_⟩
  rw [h.E]; cases f.E <;> simp

theorem scaleCoo_one (M : Coo (Cell K)) : scaleCoo 1 1 M = M := by
  unfold scaleCoo
  have : M.entries.map (fun e => (e.1, e.2.1, Cell.sc (kWeight (1 : K) 1 e.1 e.2.1) e.2.2)) = M.entries := by
    conv_rhs => rw [← List.map_id M.entries]
    refine List.map_congr_left ?_
    intro e _
    simp [kWeight, Cell.sc_one]
  rw [this]

/-- Forgets the place of a fiber in the plane. -/
def unplaced (f : Fiber K) : Fiber K := { f with x := 0, y := 0, u := 0, v := 0 }

theorem unplaced_same (f : Fiber K) : SameButPlace f (unplaced f) := ⟨rfl, rfl, rfl, rfl, rfl, rfl, rfl⟩

theorem unplaced_eq {f f' : Fiber K} (h : SameButPlace f f') : unplaced f' = unplaced f := by
  obtain ⟨h1, h2, h3, h4, h5, h6, h7⟩ := h
  simp only [unplaced, h1, h2, h3, h4, h5, h6, h7]

/-- Forgets places in the plane. -/
def forget : CoordMap K := ⟨fun a => a, fun _ => 0, fun _ => 0, fun a => a⟩

theorem forget_scales : (forget : CoordMap K).Scales 1 := ⟨fun a => (one_mul a).symm, fun a => (one_mul a).symm⟩

theorem sameNodes_iff {rows rows' : List (MeshRow K)} : SameNodes rows rows' ↔ rows.map forget.mesh = rows'.map forget.mesh := by
  constructor
  · intro h
    have := congrArg (List.map (fun t : Int × K × K × Int × Int => (⟨t.1, t.2.1, 0, 0, t.2.2.1, t.2.2.2.1, t.2.2.2.2⟩ : MeshRow K))) h
    rw [List.map_map, List.map_map] at this
    exact this
  · intro h
    have := congrArg (List.map (fun r : MeshRow K => (r.fiber, r.s, r.z, r.beam, r.constraint))) h
    rw [List.map_map, List.map_map] at this
    exact this

theorem sameConnections_iff {rows rows' : List (NetRow K)} :
    SameConnections rows rows' ↔ rows.map forget.row = rows'.map forget.row := by
  constructor
  · intro h
    have := congrArg (List.map (fun t : Int × Int × K × K × K × K =>
      (⟨t.1, t.2.1, t.2.2.1, t.2.2.2.1, 0, 0, t.2.2.2.2.1, 0, 0, t.2.2.2.2.2⟩ : NetRow K))) h
    rw [List.map_map, List.map_map] at this
    exact this
  · intro h
    have := congrArg (List.map (fun r : NetRow K => (r.A, r.B, r.sA, r.sB, r.zA, r.zB))) h
    rw [List.map_map, List.map_map] at this
    exact this

theorem forall₂_unplaced {fs fs' : List (Fiber K)} (h : List.Forall₂ SameButPlace fs fs') : fs.map unplaced = fs'.map unplaced := by
  induction h with
  | nil => rfl
  | cons h1 _ ih => simp only [List.map_cons, ih, unplaced_eq h1]

theorem option_map_one (a : Option K) : a.map (fun x => 1 * x) = a := by cases a <;> simp

theorem stiffnessCore_same {fs fs' : List (Fiber K)} (hf : List.Forall₂ SameButPlace fs fs') {rows rows' : List (MeshRow K)}
    (hr : SameNodes rows rows') (lmin lmax : Option K) (coupling : K) :
    stiffnessCore fs rows lmin lmax coupling = stiffnessCore fs' rows' lmin lmax coupling := by
  have key : ∀ (fs : List (Fiber K)) (rows : List (MeshRow K)),
      stiffnessCore fs rows lmin lmax coupling = stiffnessCore (fs.map unplaced) (rows.map forget.mesh) lmin lmax coupling := by
    intro fs rows
    have := stiffnessCore_map one_pos one_pos forget_scales (fun f => sameIn_one (unplaced_same f)) fs rows lmin lmax coupling
    rw [option_map_one, option_map_one] at this
    rw [this]
    cases stiffnessCore fs rows lmin lmax coupling <;> simp [Except.map, scaleCoo_one]
  rw [key fs rows, key fs' rows', forall₂_unplaced hf, sameNodes_iff.1 hr]

theorem constraintCore_same {fs fs' : List (Fiber K)} (hf : List.Forall₂ SameButPlace fs fs') {rows rows' : List (MeshRow K)}
    (hr : SameNodes rows rows') : constraintCore fs rows = constraintCore fs' rows' := by
  have key : ∀ (fs : List (Fiber K)) (rows : List (MeshRow K)),
      constraintCore fs rows = constraintCore (fs.map unplaced) (rows.map forget.mesh) := by
    intro fs rows
    have := constraintCore_map one_pos forget_scales (fun f => (sameIn_one (unplaced_same f)).h) fs rows
    rw [this]
    have h1 : ∀ l : List (Cell K), l.map (Cell.sc 1) = l := by
      intro l
      conv_rhs => rw [← List.map_id l]
      exact List.map_congr_left (fun a _ => Cell.sc_one a)
    cases constraintCore fs rows <;> simp [Except.map, h1]
  rw [key fs rows, key fs' rows', forall₂_unplaced hf, sameNodes_iff.1 hr]

/-- The solver does not look at places and directions in the plane. -/
theorem C80_solve {mat mat' : Mat K} {mesh mesh' : Mesh K} (h : matCheck mat.frame = .ok ()) (h' : matCheck mat'.frame = .ok ())
    (hm : meshCheck mesh.frame = .ok ()) (hm' : meshCheck mesh'.frame = .ok ()) (hf : List.Forall₂ SameButPlace mat.fibers mat'.fibers)
    (hr : SameNodes mesh.rows mesh'.rows) (lmin lmax : Option K) (coupling : K) (o : Opts K) (perm : Option (List ℕ)) :
    solve mat mesh lmin lmax coupling o perm = solve mat' mesh' lmin lmax coupling o perm := by
  unfold solve
  rw [stiffness_core h hm, stiffness_core h' hm', stiffnessCore_same hf hr]
  have e := constraint_core h hm
  have e' := constraint_core h' hm'
  rw [constraintCore_same hf hr, ← e'] at e
  cases stiffnessCore mat'.fibers mesh'.rows lmin lmax coupling with
  | error e => rfl
  | ok Km =>
    simp only [Bind.bind, Except.bind]
    cases hc : constraint mat mesh with
    | error x =>
      cases hc' : constraint mat' mesh' with
      | error y => rw [hc, hc'] at e; simpa [Except.map] using e
      | ok y => rw [hc, hc'] at e; simp [Except.map] at e
    | ok x =>
      cases hc' : constraint mat' mesh' with
      | error y => rw [hc, hc'] at e; simp [Except.map] at e
      | ok y =>
        rw [hc, hc'] at e
        simp only [Except.map, Except.ok.injEq, Prod.mk.injEq] at e
        obtain ⟨e1, e2, e3, e4⟩ := e
        have : assemble Km x = assemble Km y := by unfold assemble; rw [e1, e2, e3, e4]
        simp only [this]

/-! ### Nets -/

theorem forall₂_get {α β : Type} {R : α → β → Prop} {l : List α} {l' : List β} (h : List.Forall₂ R l l') {i : ℕ} {a : α}
    (ha : l[i]? = some a) : ∃ b, l'[i]? = some b ∧ R a b := by
  induction h generalizing i with
  | nil => simp at ha
  | cons h1 _ ih =>
    cases i with
    | zero => simp only [List.getElem?_cons_zero, Option.some.injEq] at ha ⊢; exact ⟨_, rfl, ha ▸ h1⟩
    | succ i => simpa using ih (by simpa using ha)

theorem forall₂_flip {α β : Type} {R : α → β → Prop} {l : List α} {l' : List β} (h : List.Forall₂ R l l') :
    List.Forall₂ (fun b a => R a b) l' l := List.Forall₂.flip h

theorem SameButPlace.symm' {f f' : Fiber K} (h : SameButPlace f f') : SameButPlace f' f :=
  ⟨h.l.symm, h.b.symm, h.h.symm, h.z.symm, h.w.symm, h.G.symm, h.E.symm⟩

/-- A row of one net is a row of the other. -/
theorem connections_sub {m m' : Mat K} (h : GoodMat m) (h' : GoodMat m') (hf : List.Forall₂ SameButPlace m.fibers m'.fibers)
    {periodic : Bool} {net net' : Net K} (hn : netNew m periodic = .ok net) (hn' : netNew m' periodic = .ok net')
    (hrow : ∀ r ∈ net.rows, r.A < r.B → ∃ r' ∈ net'.rows, r'.A = r.A ∧ r'.B = r.B ∧ r'.sA = r.sA ∧ r'.sB = r.sB)
    {t : Int × Int × K × K × K × K} (ht : t ∈ net.rows.map (fun r => (r.A, r.B, r.sA, r.sB, r.zA, r.zB))) :
    t ∈ net'.rows.map (fun r => (r.A, r.B, r.sA, r.sB, r.zA, r.zB)) := by
  obtain ⟨r, hr, rfl⟩ := List.mem_map.1 ht
  obtain ⟨f, g, ⟨a, b, hA, hB, hfa, hgb⟩, h1, h2, -⟩ := C08_nodes_on_fibers h hn hr
  obtain ⟨f', hfa', hff⟩ := forall₂_get hf hfa
  obtain ⟨g', hgb', hgg⟩ := forall₂_get hf hgb
  have hz : r.zA = f.z + r.sA * f.w := congrArg (fun p => p.2.2) h1
  have hz2 : r.zB = g.z + r.sB * g.w := congrArg (fun p => p.2.2) h2
  obtain ⟨r', hr', e1, e2, e3, e4⟩ : ∃ r' ∈ net'.rows, r'.A = r.A ∧ r'.B = r.B ∧ r'.sA = r.sA ∧ r'.sB = r.sB := by
    obtain ⟨-, hle, -⟩ := C06_labels h hn r hr
    rcases lt_or_eq_of_le hle with hlt | heq
    · exact hrow r hr hlt
    · have hab : a = b := by omega
      subst hab
      obtain ⟨k, q, hq, q1, q2, q3, q4, -, -, hu⟩ := C07_end_row h hn hfa
      obtain ⟨k', hk'⟩ := List.mem_iff_getElem?.1 hr
      have := hu k' r hk' hA hB
      subst this
      rw [hk'] at hq
      cases hq
      obtain ⟨k2, q', hq', p1, p2, p3, p4, -⟩ := C07_end_row h' hn' hfa'
      exact ⟨q', List.mem_of_getElem? hq', by rw [p1, q1], by rw [p2, q2], by rw [p3, q3, hff.l], by rw [p4, q4, hff.l]⟩
  obtain ⟨F, G, ⟨c, d, hC, hD, hFc, hGd⟩, j1, j2, -⟩ := C08_nodes_on_fibers h' hn' hr'
  have hca : c = a := by omega
  have hdb : d = b := by omega
  subst hca hdb
  rw [hfa'] at hFc
  rw [hgb'] at hGd
  cases hFc
  cases hGd
  have hz' : r'.zA = f'.z + r'.sA * f'.w := congrArg (fun p => p.2.2) j1
  have hz2' : r'.zB = g'.z + r'.sB * g'.w := congrArg (fun p => p.2.2) j2
  refine List.mem_map.2 ⟨r', hr', ?_⟩
  simp only [e1, e2, e3, e4, hz, hz2, hz', hz2', hff.z, hff.w, hgg.z, hgg.w]

/-- Nets with the same connections at the same abscissae are the same, but for places in the plane. -/
theorem connections_eq {m m' : Mat K} (h : GoodMat m) (h' : GoodMat m') (hf : List.Forall₂ SameButPlace m.fibers m'.fibers)
    {periodic : Bool} {net net' : Net K} (hn : netNew m periodic = .ok net) (hn' : netNew m' periodic = .ok net')
    (hrow : ∀ r ∈ net.rows, r.A < r.B → ∃ r' ∈ net'.rows, r'.A = r.A ∧ r'.B = r.B ∧ r'.sA = r.sA ∧ r'.sB = r.sB)
    (hrow' : ∀ r ∈ net'.rows, r.A < r.B → ∃ r' ∈ net.rows, r'.A = r.A ∧ r'.B = r.B ∧ r'.sA = r.sA ∧ r'.sB = r.sB) :
    SameConnections net.rows net'.rows := by
  have hf' : List.Forall₂ SameButPlace m'.fibers m.fibers := (forall₂_flip hf).imp (fun _ _ h => SameButPlace.symm' h)
  let lt : (Int × Int × K × K × K × K) → (Int × Int × K × K × K × K) → Prop := fun p q => p.1 < q.1 ∨ (p.1 = q.1 ∧ p.2.1 < q.2.1)
  have : Std.Irrefl lt := ⟨fun a => by simp only [lt]; omega⟩
  have : Std.Antisymm lt := ⟨fun a b h1 h2 => by simp only [lt] at *; omega⟩
  have hp : ∀ {rows : List (NetRow K)}, IncreasingAB rows → (rows.map (fun r => (r.A, r.B, r.sA, r.sB, r.zA, r.zB))).Pairwise lt := by
    intro rows hi
    rw [List.pairwise_map]
    exact hi
  refine List.Pairwise.eq_of_mem_iff (r := lt) (hp (C06_increasing h hn)) (hp (C06_increasing h' hn')) ?_
  intro t
  exact ⟨connections_sub h h' hf hn hn' hrow, connections_sub h' h hf' hn' hn hrow'⟩

/-- The determinant of an orthogonal matrix. -/
theorem orthogonal_det {a b c d : K} (h : Orthogonal a b c d) : (a * d - b * c) ^ 2 = 1 := by
  obtain ⟨h1, h2, h3⟩ := h
  linear_combination (b ^ 2 + d ^ 2) * h1 + h2 - (a * b + c * d) * h3

theorem turned_parallel {a b c d p q p' q' : K} (ho : Orthogonal a b c d) {f g f' g' : Fiber K} (hf : Turned a b c d p q f f')
    (hg : Turned a b c d p' q' g g') : NotParallel f' g' ↔ NotParallel f g := by
  obtain ⟨-, -, -, hu, hv⟩ := hf
  obtain ⟨-, -, -, hu', hv'⟩ := hg
  have e : f'.u * g'.v - f'.v * g'.u = (a * d - b * c) * (f.u * g.v - f.v * g.u) := by rw [hu, hv, hu', hv']; ring
  have hne : a * d - b * c ≠ 0 := by
    intro h0
    have := orthogonal_det ho
    rw [h0] at this
    norm_num at this
  unfold NotParallel
  rw [e, mul_ne_zero_iff]
  exact ⟨fun h => h.2, fun h => ⟨hne, h⟩⟩

theorem turned_planar {a b c d p q : K} (ho : Orthogonal a b c d) {f f' : Fiber K} (hf : Turned a b c d p q f f') (h : Planar f) :
    Planar f' := by
  obtain ⟨hs, -, -, hu, hv⟩ := hf
  obtain ⟨h1, h2, h3⟩ := ho
  refine ⟨hs.w.trans h.1, ?_⟩
  have := h.2
  rw [hu, hv]
  linear_combination f.u ^ 2 * h1 + f.v ^ 2 * h2 + 2 * f.u * f.v * h3 + this

/-- Crossings of turned fibers. -/
theorem turned_cross {S : K} {a b c d : ℤ} {p q : K} (ho : Orthogonal (a : K) b c d) {f g f' g' : Fiber K}
    (hf : TurnedInBox S (a : K) b c d p q f f') (hg : TurnedInBox S (a : K) b c d p q g g') (s t : K) :
    (∃ i j : ℤ, CrossAt S i j f' g' s t) ↔ ∃ i j : ℤ, CrossAt S i j f g s t := by
  obtain ⟨i1, j1, ⟨hsf, hx, hy, hu, hv⟩⟩ := hf
  obtain ⟨i2, j2, ⟨hsg, hx', hy', hu', hv'⟩⟩ := hg
  obtain ⟨o1, o2, o3⟩ := ho
  constructor
  · rintro ⟨i, j, h1, h2, h3, h4⟩
    rw [hsf.l] at h1
    rw [hsg.l] at h2
    rw [hx, hu, hx', hu'] at h3
    rw [hy, hv, hy', hv'] at h4
    refine ⟨a * (i + i2 - i1) + c * (j + j2 - j1), b * (i + i2 - i1) + d * (j + j2 - j1), h1, h2, ?_, ?_⟩
    · push_cast
      linear_combination (a : K) * h3 + c * h4 - (f.x + s * f.u - g.x - t * g.u) * o1 - (f.y + s * f.v - g.y - t * g.v) * o3
    · push_cast
      linear_combination (b : K) * h3 + d * h4 - (f.y + s * f.v - g.y - t * g.v) * o2 - (f.x + s * f.u - g.x - t * g.u) * o3
  · rintro ⟨i, j, h1, h2, h3, h4⟩
    refine ⟨a * i + b * j + i1 - i2, c * i + d * j + j1 - j2, by rwa [hsf.l], by rwa [hsg.l], ?_, ?_⟩
    · rw [hx, hu, hx', hu']
      push_cast
      linear_combination (a : K) * h3 + b * h4
    · rw [hy, hv, hy', hv']
      push_cast
      linear_combination (c : K) * h3 + d * h4

/-- Turning a periodic mat by quarter turns, mirroring it or moving its origin (fibers leaving the box on one side enter it on the
other) changes no connection, provided fibers are no longer than half the box. -/
theorem C80_periodic_net {m m' : Mat K} (h : GoodMat m) (h' : GoodMat m') {S : K} (hS : m.attrs.size = some S)
    (hS' : m'.attrs.size = some S) (hp : ∀ f ∈ m.fibers, Planar f) (hlen : ∀ f ∈ m.fibers, f.l ≤ S / 2) {a b c d : ℤ} {p q : K}
    (ho : Orthogonal (a : K) b c d) (ht : List.Forall₂ (TurnedInBox S (a : K) b c d p q) m.fibers m'.fibers) {net net' : Net K}
    (hn : netNew m true = .ok net) (hn' : netNew m' true = .ok net') : SameConnections net.rows net'.rows := by
  have hback := forall₂_flip ht
  have hp' : ∀ f ∈ m'.fibers, Planar f := by
    intro f' hf'
    obtain ⟨k, hk⟩ := List.mem_iff_getElem?.1 hf'
    obtain ⟨f, hf, i, j, hT⟩ := forall₂_get hback hk
    exact turned_planar ho hT (hp f (List.mem_of_getElem? hf))
  have hlen' : ∀ f ∈ m'.fibers, f.l ≤ S / 2 := by
    intro f' hf'
    obtain ⟨k, hk⟩ := List.mem_iff_getElem?.1 hf'
    obtain ⟨f, hf, i, j, hT⟩ := forall₂_get hback hk
    rw [hT.1.l]
    exact hlen f (List.mem_of_getElem? hf)
  refine connections_eq h h' (ht.imp (fun f f' hT => by obtain ⟨i, j, h, -⟩ := hT; exact h)) hn hn' ?_ ?_
  · intro r hr hlt
    obtain ⟨f, g, ⟨x, y, hA, hB, hf, hg⟩, -⟩ := C08_nodes_on_fibers h hn hr
    obtain ⟨f', hf', hff⟩ := forall₂_get ht hf
    obtain ⟨g', hg', hgg⟩ := forall₂_get ht hg
    have hxy : x < y := by omega
    obtain ⟨h1, h2⟩ := (C79_rows_are_crossings h hS hp hlen hn hxy hf hg r.sA r.sB).1 ⟨r, hr, hA, hB, rfl, rfl⟩
    have h3 : NotParallel f' g' := by
      obtain ⟨_, _, t1⟩ := hff
      obtain ⟨_, _, t2⟩ := hgg
      exact (turned_parallel ho t1 t2).2 h1
    obtain ⟨r', hr', e1, e2, e3, e4⟩ := (C79_rows_are_crossings h' hS' hp' hlen' hn' hxy hf' hg' r.sA r.sB).2
      ⟨h3, (turned_cross ho hff hgg _ _).2 h2⟩
    exact ⟨r', hr', by rw [e1, hA], by rw [e2, hB], e3, e4⟩
  · intro r hr hlt
    obtain ⟨f', g', ⟨x, y, hA, hB, hf', hg'⟩, -⟩ := C08_nodes_on_fibers h' hn' hr
    obtain ⟨f, hf, hff⟩ := forall₂_get hback hf'
    obtain ⟨g, hg, hgg⟩ := forall₂_get hback hg'
    have hxy : x < y := by omega
    obtain ⟨h1, h2⟩ := (C79_rows_are_crossings h' hS' hp' hlen' hn' hxy hf' hg' r.sA r.sB).1 ⟨r, hr, hA, hB, rfl, rfl⟩
    have h3 : NotParallel f g := by
      obtain ⟨_, _, t1⟩ := hff
      obtain ⟨_, _, t2⟩ := hgg
      exact (turned_parallel ho t1 t2).1 h1
    obtain ⟨r', hr', e1, e2, e3, e4⟩ := (C79_rows_are_crossings h hS hp hlen hn hxy hf hg r.sA r.sB).2
      ⟨h3, (turned_cross ho hff hgg _ _).1 h2⟩
    exact ⟨r', hr', by rw [e1, hA], by rw [e2, hB], e3, e4⟩

/-! ### Without periodicity -/

theorem turned_candidate {a b c d p q : K} (ho : Orthogonal a b c d) {f g f' g' : Fiber K} (hf : Turned a b c d p q f f')
    (hg : Turned a b c d p q g g') (i j : ℕ) : candidate ((i, f'), (j, g')) = candidate ((i, f), (j, g)) := by
  obtain ⟨hsf, hx, hy, hu, hv⟩ := hf
  obtain ⟨hsg, hx', hy', hu', hv'⟩ := hg
  obtain ⟨o1, o2, o3⟩ := ho
  have dU : ∀ {e e' k k' : Fiber K}, e'.u = a * e.u + b * e.v → e'.v = c * e.u + d * e.v → e'.w = e.w →
      k'.u = a * k.u + b * k.v → k'.v = c * k.u + d * k.v → k'.w = k.w → dotU e' k' = dotU e k := by
    intro e e' k k' h1 h2 h3 h4 h5 h6
    unfold dotU
    rw [h1, h2, h3, h4, h5, h6]
    linear_combination e.u * k.u * o1 + e.v * k.v * o2 + (e.u * k.v + e.v * k.u) * o3
  have dR : ∀ {e e' : Fiber K}, e'.u = a * e.u + b * e.v → e'.v = c * e.u + d * e.v → e'.w = e.w → dotR e' f' g' = dotR e f g := by
    intro e e' h1 h2 h3
    unfold dotR
    rw [h1, h2, h3, hx, hy, hx', hy', hsf.z, hsg.z]
    linear_combination e.u * (g.x - f.x) * o1 + e.v * (g.y - f.y) * o2 + (e.u * (g.y - f.y) + e.v * (g.x - f.x)) * o3
  have e1 := dU hu hv hsf.w hu hv hsf.w
  have e2 := dU hu hv hsf.w hu' hv' hsg.w
  have e3 := dU hu' hv' hsg.w hu hv hsf.w
  have e4 := dU hu' hv' hsg.w hu' hv' hsg.w
  have e5 := dR hu hv hsf.w
  have e6 := dR hu' hv' hsg.w
  have hab : abscissae f' g' = abscissae f g := by
    have ed : detU f' g' = detU f g := by simp only [detU, e1, e2, e3, e4]
    simp only [abscissae]
    rw [ed, e1, e2, e3, e4, e5, e6, hsf.l, hsg.l]
  have hnear : nearby f' g' = nearby f g := by
    have e : (f'.x - g'.x) ^ 2 + (f'.y - g'.y) ^ 2 = (f.x - g.x) ^ 2 + (f.y - g.y) ^ 2 := by
      rw [hx, hy, hx', hy']
      linear_combination (f.x - g.x) ^ 2 * o1 + (f.y - g.y) ^ 2 * o2 + 2 * (f.x - g.x) * (f.y - g.y) * o3
    simp only [nearby, hsf.l, hsg.l]
    rw [e]
  simp only [candidate, hab, hnear, hsf.l, hsg.l]

theorem triu_forall₂ {α β : Type} {R : α → β → Prop} {l : List α} {l' : List β} (h : List.Forall₂ R l l') :
    List.Forall₂ (fun p q => R p.1 q.1 ∧ R p.2 q.2) (triu l) (triu l') := by
  induction h with
  | nil => exact List.Forall₂.nil
  | cons h1 h2 ih =>
    simp only [triu]
    refine List.rel_append ?_ ih
    rw [List.forall₂_map_left_iff, List.forall₂_map_right_iff]
    exact List.Forall₂.cons ⟨h1, h1⟩ (h2.imp (fun _ _ h => ⟨h1, h⟩))

theorem filterMap_forall₂ {α β γ : Type} {R : α → β → Prop} {l : List α} {l' : List β} (h : List.Forall₂ R l l') {f : α → Option γ}
    {g : β → Option γ} (hfg : ∀ a b, R a b → f a = g b) : l.filterMap f = l'.filterMap g := by
  induction h with
  | nil => rfl
  | cons h1 _ ih => simp only [List.filterMap_cons, hfg _ _ h1, ih]

theorem zipIdx_forall₂ {α β : Type} {R : α → β → Prop} {l : List α} {l' : List β} (h : List.Forall₂ R l l') (n : ℕ) :
    List.Forall₂ (fun p q => R p.1 q.1 ∧ p.2 = q.2) (l.zipIdx n) (l'.zipIdx n) := by
  induction h generalizing n with
  | nil => exact List.Forall₂.nil
  | cons h1 _ ih => simp only [List.zipIdx_cons]; exact List.Forall₂.cons ⟨h1, rfl⟩ (ih _)

/-- Turning a mat by any angle, mirroring or moving it changes no connection of the net without periodicity. -/
theorem C80_plain_net {m m' : Mat K} (h : GoodMat m) (h' : GoodMat m') {a b c d p q : K} (ho : Orthogonal a b c d)
    (ht : List.Forall₂ (Turned a b c d p q) m.fibers m'.fibers) {net net' : Net K}
    (hn : netNew m false = .ok net) (hn' : netNew m' false = .ok net') : SameConnections net.rows net'.rows := by
  have hcands : ∀ S S' : K, netCands false S m.fibers = netCands false S' m'.fibers := by
    intro S S'
    unfold netCands
    congr 1
    refine filterMap_forall₂ (R := fun P Q => (P.1.1 = Q.1.1 ∧ Turned a b c d p q P.1.2 Q.1.2) ∧ (P.2.1 = Q.2.1 ∧ Turned a b c d p q P.2.2 Q.2.2)) ?_ ?_
    · refine triu_forall₂ (R := fun (P Q : ℕ × Fiber K) => P.1 = Q.1 ∧ Turned a b c d p q P.2 Q.2) ?_
      show List.Forall₂ _ (plainFibers m.fibers) (plainFibers m'.fibers)
      unfold plainFibers
      rw [List.forall₂_map_left_iff, List.forall₂_map_right_iff]
      exact (zipIdx_forall₂ ht 0).imp (fun _ _ h => ⟨h.2, h.1⟩)
    · rintro ⟨⟨i, f⟩, ⟨j, g⟩⟩ ⟨⟨i', f'⟩, ⟨j', g'⟩⟩ ⟨⟨h1, h2⟩, ⟨h3, h4⟩⟩
      simp only at h1 h2 h3 h4
      subst h1 h3
      exact (turned_candidate ho h2 h4 i j).symm
  have hlab := C06_labels h hn
  obtain ⟨S, hS, -, rfl⟩ := netNew_ok h hn
  obtain ⟨S', hS', -, rfl⟩ := netNew_ok h' hn'
  unfold SameConnections
  simp only
  rw [← hcands S S', List.map_map, List.map_map]
  refine List.map_congr_left ?_
  intro r hr
  have hl := hlab (netRow m.fibers r) (List.mem_map_of_mem hr)
  simp only [netRow] at hl
  obtain ⟨f, hf⟩ : ∃ f, m.fibers[r.A]? = some f := ⟨_, List.getElem?_eq_getElem (by omega)⟩
  obtain ⟨g, hg⟩ : ∃ f, m.fibers[r.B]? = some f := ⟨_, List.getElem?_eq_getElem (by omega)⟩
  obtain ⟨f', hf', t1⟩ := forall₂_get ht hf
  obtain ⟨g', hg', t2⟩ := forall₂_get ht hg
  simp only [Function.comp, netRow, List.getD_eq_getElem?_getD, hf, hg, hf', hg', Option.getD_some, t1.1.z, t1.1.w, t2.1.z, t2.1.w]

/-! ### Stacks and meshes -/

theorem setZ_forall₂ {R : Fiber K → Fiber K → Prop} (hz : ∀ f f' z, R f f' → R { f with z := z } { f' with z := z }) {m m' : Mat K}
    (h : List.Forall₂ R m.fibers m'.fibers) (z : List K) : List.Forall₂ R (m.setZ z).fibers (m'.setZ z).fibers := by
  show List.Forall₂ R ((m.fibers.zip z).map _) ((m'.fibers.zip z).map _)
  rw [List.forall₂_map_left_iff, List.forall₂_map_right_iff]
  generalize m.fibers = fs at *
  generalize m'.fibers = fs' at *
  induction h generalizing z with
  | nil => exact List.Forall₂.nil
  | cons h1 _ ih =>
    cases z with
    | nil => exact List.Forall₂.nil
    | cons a z => exact List.Forall₂.cons (hz _ _ a h1) (ih z)

theorem same_innerRows {rows rows' : List (NetRow K)} (h : SameConnections rows rows') :
    (innerRows rows).map (fun r => (r.A, r.B)) = (innerRows rows').map (fun r => (r.A, r.B)) := by
  have h1 : rows.map (fun r => (r.A, r.B)) = rows'.map (fun r => (r.A, r.B)) := by
    have := congrArg (List.map (fun t : Int × Int × K × K × K × K => (t.1, t.2.1))) h
    rwa [List.map_map, List.map_map] at this
  have h2 := congrArg (List.filter (fun t : Int × Int => decide (t.1 < t.2))) h1
  rw [List.filter_map, List.filter_map] at h2
  exact h2

/-- The linear program of `Stack` does not look at places in the plane. -/
theorem same_stackSys {m m' : Mat K} (hf : List.Forall₂ SameButPlace m.fibers m'.fibers) {net net' : Net K}
    (hr : SameConnections net.rows net'.rows) : stackSysOf m net = stackSysOf m' net' := by
  have hin := same_innerRows hr
  have hlen : m.fibers.length = m'.fibers.length := hf.length_eq
  have hh : m.fibers.map (·.h) = m'.fibers.map (·.h) := by
    have := congrArg (List.map (fun f : Fiber K => f.h)) (forall₂_unplaced hf)
    rwa [List.map_map, List.map_map] at this
  have hv : m.fibers.map (fun g => npPi / 4 * (g.l * g.b * g.h)) = m'.fibers.map (fun g => npPi / 4 * (g.l * g.b * g.h)) := by
    have := congrArg (List.map (fun g : Fiber K => npPi / 4 * (g.l * g.b * g.h))) (forall₂_unplaced hf)
    rwa [List.map_map, List.map_map] at this
  have key : ∀ {β : Type} (φ : (Int × Int) × ℕ → β) , (innerRows net.rows).zipIdx.map (fun p => φ ((p.1.A, p.1.B), p.2)) =
      (innerRows net'.rows).zipIdx.map (fun p => φ ((p.1.A, p.1.B), p.2)) := by
    intro β φ
    have := congrArg (fun l : List (Int × Int) => l.zipIdx.map φ) hin
    simp only [List.zipIdx_map, List.map_map] at this
    exact this
  have k1 := key (fun p => (p.2, p.1.1.toNat, (1 : K)))
  have k2 := key (fun p => (p.2, p.1.2.toNat, (-1 : K)))
  have k3 := congrArg (List.map (fun p : Int × Int => -(((m'.fibers.map (·.h)).getD p.1.toNat 0 + (m'.fibers.map (·.h)).getD p.2.toNat 0) / 2))) hin
  rw [List.map_map, List.map_map] at k3
  have k4 : (innerRows net.rows).length = (innerRows net'.rows).length := by
    have := congrArg List.length hin
    simpa using this
  simp only at k1 k2
  simp only [stackSysOf, k1, k2, k4, hlen, hh, hv]
  congr 1

theorem same_keep {net net' : Net K} (h : SameConnections net.rows net'.rows) (threshold : Option K) :
    SameConnections (keep threshold net).rows (keep threshold net').rows := by
  cases threshold with
  | none => exact h
  | some t =>
    have h2 := congrArg (List.filter (fun p : Int × Int × K × K × K × K =>
      decide (|p.2.2.2.2.2 - p.2.2.2.2.1| ≤ t ∨ p.1 = p.2.1))) h
    rw [List.filter_map, List.filter_map] at h2
    exact h2

theorem same_meshNew {net net' : Net K} (h : SameConnections net.rows net'.rows) {mesh mesh' : Mesh K} (hm : meshNew net = .ok mesh)
    (hm' : meshNew net' = .ok mesh') : SameNodes mesh.rows mesh'.rows := by
  have key : ∀ {net : Net K} {mesh : Mesh K}, meshNew net = .ok mesh → mesh.rows = meshRows net.rows := by
    intro net mesh hm
    simp only [meshNew, meshInit, Bind.bind, Except.bind, pure, Except.pure] at hm
    split at hm
    · simp at hm
    · rename_i v hv
      split at hv
      · simp at hv
      · cases hv
        split at hm
        · simp at hm
        · cases hm; rfl
  rw [sameNodes_iff, key hm, key hm', ← meshRows_map forget (fun a b => Iff.rfl), ← meshRows_map forget (fun a b => Iff.rfl),
    sameConnections_iff.1 h]

/-- A relation of mats which keeps connections keeps the whole simulation. -/
theorem chain_same {R : Fiber K → Fiber K → Prop} (hR : ∀ f f', R f f' → SameButPlace f f')
    (hz : ∀ f f' z, R f f' → R { f with z := z } { f' with z := z }) {periodic : Bool} {S : K}
    (hnet : ∀ {m m' : Mat K}, GoodMat m → GoodMat m' → m.attrs.size = some S → m'.attrs = m.attrs → List.Forall₂ R m.fibers m'.fibers →
      ∀ {net net' : Net K}, netNew m periodic = .ok net → netNew m' periodic = .ok net' → SameConnections net.rows net'.rows)
    {m m' : Mat K} (h : GoodMat m) (h' : GoodMat m') (hS : m.attrs.size = some S) (ha : m'.attrs = m.attrs)
    (hf : List.Forall₂ R m.fibers m'.fibers) {lp : Linprog K} (hlp : GoodLinprog lp) (threshold lmin lmax : Option K) (coupling : K)
    (o : Opts K) (perm : Option (List ℕ)) :
    chain lp periodic threshold lmin lmax coupling o perm m = chain lp periodic threshold lmin lmax coupling o perm m' := by
  obtain ⟨net, hn, -⟩ := C06_netNew_ok h periodic
  obtain ⟨net', hn', -⟩ := C06_netNew_ok h' periodic
  have hconn := hnet h h' hS ha hf hn hn'
  have hsf := hf.imp hR
  obtain ⟨hck, hov, hper⟩ := netNew_over h hn
  obtain ⟨hck', hov', hper'⟩ := netNew_over h' hn'
  obtain ⟨m1, st, mesh, hst, hmesh, -⟩ := C27_mesh_of_stack hlp h hn threshold
  obtain ⟨m1', st', mesh', hst', hmesh', -⟩ := C27_mesh_of_stack hlp h' hn' threshold
  have hmck : ∀ {net : Net K} {mesh : Mesh K}, meshNew net = .ok mesh → meshCheck mesh.frame = .ok () := by
    intro net mesh hm
    simp only [meshNew, Bind.bind, Except.bind, pure, Except.pure] at hm
    split at hm
    · simp at hm
    · rename_i v hv
      split at hm
      · simp at hm
      · rename_i u hu
        cases hm
        cases u
        exact hu
  have facts : GoodMat m1 ∧ GoodMat m1' ∧ List.Forall₂ SameButPlace m1.fibers m1'.fibers ∧ SameConnections st.rows st'.rows := by
    by_cases he : m.fibers = []
    · have he' : m'.fibers = [] := by rw [he] at hf; exact List.forall₂_nil_left_iff.1 hf
      obtain ⟨e1, -⟩ := stackNew_empty (lin := lp) h hck hov he threshold
      obtain ⟨e1', -⟩ := stackNew_empty (lin := lp) h' hck' hov' he' threshold
      rw [hst] at e1
      rw [hst'] at e1'
      cases e1
      cases e1'
      exact ⟨h, h', hsf, hconn⟩
    · have he' : m'.fibers ≠ [] := by
        intro h0
        rw [h0] at hf
        exact he (List.forall₂_nil_right_iff.1 hf)
      obtain ⟨sys, hs, -, -, z, hzo, -⟩ := C15_unique_optimum h hck hov
      rw [stackConstraint_eq ((matCheck_frame_iff m).2 (Or.inr h)) hck hov] at hs
      cases hs
      obtain ⟨y, hy, hopt⟩ := hlp _ ⟨z, hzo⟩
      have hl := ((optimal_iff h hov y).1 hopt).1
      have hl' : y.length = m'.fibers.length := hl.trans hf.length_eq
      obtain ⟨n1, g1, e1⟩ := stackNew_eq h hck hov he threshold hy hl
      rw [same_stackSys hsf hconn] at hy
      obtain ⟨n1', g1', e1'⟩ := stackNew_eq h' hck' hov' he' threshold hy hl'
      rw [hper] at g1
      rw [hper'] at g1'
      rw [hst] at e1
      rw [hst'] at e1'
      cases e1
      cases e1'
      have hf1 := setZ_forall₂ hz hf y
      refine ⟨setZ_good h hl, setZ_good h' hl', hf1.imp hR, ?_⟩
      exact same_keep (hnet (setZ_good h hl) (setZ_good h' hl') hS ha hf1 g1 g1') threshold
  obtain ⟨a1, a2, a3, a4⟩ := facts
  have hsolve := C80_solve ((matCheck_frame_iff m1).2 (Or.inr a1)) ((matCheck_frame_iff m1').2 (Or.inr a2)) (hmck hmesh) (hmck hmesh') a3
    (same_meshNew a4 hmesh hmesh') lmin lmax coupling o perm
  unfold chain
  simp only [hn, hn', hst, hst', hmesh, hmesh', Bind.bind, Except.bind, hsolve]

/-- The whole simulation of a periodic mat with fibers no longer than half the box does not depend on where the box is placed, nor
on its orientation among quarter turns and mirror images. -/
theorem C80_periodic {m m' : Mat K} (h : GoodMat m) (h' : GoodMat m') {S : K} (hS : m.attrs.size = some S) (ha : m'.attrs = m.attrs)
    (hp : ∀ f ∈ m.fibers, Planar f) (hlen : ∀ f ∈ m.fibers, f.l ≤ S / 2) {a b c d : ℤ} {p q : K} (ho : Orthogonal (a : K) b c d)
    (ht : List.Forall₂ (TurnedInBox S (a : K) b c d p q) m.fibers m'.fibers) {lp : Linprog K} (hlp : GoodLinprog lp)
    (threshold lmin lmax : Option K) (coupling : K) (o : Opts K) (perm : Option (List ℕ)) :
    chain lp true threshold lmin lmax coupling o perm m = chain lp true threshold lmin lmax coupling o perm m' := by
  have hf : List.Forall₂ (fun f f' => TurnedInBox S (a : K) b c d p q f f' ∧ Planar f ∧ f.l ≤ S / 2) m.fibers m'.fibers := by
    generalize m.fibers = fs at *
    generalize m'.fibers = fs' at *
    clear h h' hS ha
    induction ht with
    | nil => exact List.Forall₂.nil
    | cons h1 _ ih =>
      exact List.Forall₂.cons ⟨h1, hp _ (by simp), hlen _ (by simp)⟩
        (ih (fun f hf => hp f (List.mem_cons_of_mem _ hf)) (fun f hf => hlen f (List.mem_cons_of_mem _ hf)))
  refine chain_same (R := fun f f' => TurnedInBox S (a : K) b c d p q f f' ∧ Planar f ∧ f.l ≤ S / 2) ?_ ?_ ?_ h h' hS ha hf hlp
    threshold lmin lmax coupling o perm
  · rintro f f' ⟨⟨i, j, h, -⟩, -⟩; exact h
  · rintro f f' z ⟨⟨i, j, h, h2⟩, h3, h4⟩
    exact ⟨⟨i, j, ⟨h.l, h.b, h.h, rfl, h.w, h.G, h.E⟩, h2⟩, h3, h4⟩
  · intro n n' g g' gS ga gf net net' hn hn'
    have hmem : ∀ f ∈ n.fibers, Planar f ∧ f.l ≤ S / 2 := by
      intro f hf
      obtain ⟨k, hk⟩ := List.mem_iff_getElem?.1 hf
      obtain ⟨f', -, -, h1⟩ := forall₂_get gf hk
      exact h1
    exact C80_periodic_net g g' gS (by rw [ga, gS]) (fun f hf => (hmem f hf).1) (fun f hf => (hmem f hf).2) ho
      (gf.imp (fun _ _ h => h.1)) hn hn'

/-- Without periodicity, the whole simulation does not depend on the place and orientation of the mat in the plane. -/
theorem C80_plain {m m' : Mat K} (h : GoodMat m) (h' : GoodMat m') (ha : m'.attrs = m.attrs) {a b c d p q : K} (ho : Orthogonal a b c d)
    (ht : List.Forall₂ (Turned a b c d p q) m.fibers m'.fibers) {lp : Linprog K} (hlp : GoodLinprog lp)
    (threshold lmin lmax : Option K) (coupling : K) (o : Opts K) (perm : Option (List ℕ)) :
    chain lp false threshold lmin lmax coupling o perm m = chain lp false threshold lmin lmax coupling o perm m' := by
  obtain ⟨S, hS, -⟩ := h.size
  refine chain_same (R := Turned a b c d p q) (fun _ _ h => h.1) ?_ ?_ h h' hS ha ht hlp threshold lmin lmax coupling o perm
  · rintro f f' z ⟨h, h2⟩
    exact ⟨⟨h.l, h.b, h.h, rfl, h.w, h.G, h.E⟩, h2⟩
  · intro n n' g g' gS ga gf net net' hn hn'
    exact C80_plain_net g g' ho gf hn hn'

end Fibermat
