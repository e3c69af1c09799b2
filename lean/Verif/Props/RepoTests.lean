import Verif.Spec.Stack
import Verif.Model.Mesh
import Verif.Model.Assembly
import Mathlib.Data.Rat.Cast.Order

/-! # The tables of the repository's tests, replayed on the model

`/repo/test/test_mat.py:44-68`, `test_net.py:45-80,99-134` and `test_mesh.py:45-100` list the mat, net, stack and mesh obtained
with ten fibers, printed with eight decimals. The model fed with the printed mat gives the same integer columns and the
same numbers up to `1/100000` (`np.allclose` in the tests). This is evidence that the model matches the code, not a theorem about it. -/

namespace Fibermat.RepoTests

/-- Equality up to the printed accuracy. -/
def near (a b : ℚ) : Bool := decide (|a - b| ≤ 1 / 100000)

/-- The mat of `test_mat.py:50-61`. -/
def mat : Mat ℚ :=
  { fibers := [
      ⟨25, 1, 1, (762711 / 312500), (145862519 / 10000000), (-1908627871 / 100000000), (73869079 / 100000000), (-13480889 / 20000000), 0, 1, ⊤⟩,
      ⟨25, 1, 1, (67246677 / 6250000), (144474599 / 100000000), (-1783233563 / 100000000), (65127679 / 100000000), (37942013 / 50000000), 0, 1, ⊤⟩,
      ⟨25, 1, 1, (6422711 / 1250000), (68044561 / 20000000), (-4266903 / 1000000), (99052639 / 100000000), (-54929 / 400000), 0, 1, ⊤⟩,
      ⟨25, 1, 1, (44883183 / 20000000), (2127983191 / 100000000), (-192603189 / 100000000), (97697819 / 100000000), (21333921 / 100000000), 0, 1, ⊤⟩,
      ⟨25, 1, 1, (-381726003 / 100000000), (-2144819709 / 100000000), (109241609 / 100000000), (2949781 / 50000000), (-3119557 / 3125000), 0, 1, ⊤⟩,
      ⟨25, 1, 1, (145894113 / 20000000), (-2064353501 / 100000000), (699605107 / 100000000), (18649707 / 20000000), (1806039 / 5000000), 0, 1, ⊤⟩,
      ⟨25, 1, 1, (-39007993 / 12500000), (-2398908013 / 100000000), (1402645881 / 100000000), (93863017 / 100000000), (34492521 / 100000000), 0, 1, ⊤⟩,
      ⟨25, 1, 1, (489716251 / 25000000), (415774807 / 25000000), (1495792821 / 100000000), (11665989 / 12500000), (8978797 / 25000000), 0, 1, ⊤⟩,
      ⟨25, 1, 1, (2318313803 / 100000000), (278156751 / 20000000), (444668917 / 20000000), (8790111 / 50000000), (98442551 / 100000000), 0, 1, ⊤⟩,
      ⟨25, 1, 1, (-291396203 / 50000000), (1850060741 / 100000000), (2393091711 / 100000000), (42062497 / 50000000), (54064641 / 100000000), 0, 1, ⊤⟩]
    attrs := { n := some 10, size := some 50 } }

/-- The net of `test_net.py:51-72`. -/
def net : List (NetRow ℚ) := [
  ⟨0, 0, (25 / 2), (-25 / 2), (1167431009 / 100000000), (616069633 / 100000000), (-1908627871 / 100000000), (-67929597 / 10000000), (575295187 / 25000000), (-1908627871 / 100000000)⟩,
  ⟨0, 3, (-806427839 / 100000000), (-589623413 / 100000000), (-351633299 / 100000000), (2002193397 / 100000000), (-1908627871 / 100000000), (-351633299 / 100000000), (2002193397 / 100000000), (-192603189 / 100000000)⟩,
  ⟨0, 4, (-48584699 / 6250000), (874105637 / 100000000), (-330157597 / 100000000), (396519427 / 20000000), (-1908627871 / 100000000), (-330157597 / 100000000), (-603480573 / 20000000), (109241609 / 100000000)⟩,
  ⟨0, 9, (-401658553 / 50000000), (277512029 / 100000000), (-349335429 / 100000000), (125006039 / 6250000), (-1908627871 / 100000000), (-349335429 / 100000000), (125006039 / 6250000), (2393091711 / 100000000)⟩,
  ⟨1, 1, (25 / 2), (-25 / 2), (1890042823 / 100000000), (1093024923 / 100000000), (-1783233563 / 100000000), (261850841 / 100000000), (-32163029 / 4000000), (-1783233563 / 100000000)⟩,
  ⟨1, 2, (138749949 / 100000000), (658735173 / 100000000), (583155727 / 50000000), (124881823 / 50000000), (-1783233563 / 100000000), (583155727 / 50000000), (124881823 / 50000000), (-4266903 / 1000000)⟩,
  ⟨2, 2, (25 / 2), (-25 / 2), (1751974869 / 100000000), (168569683 / 100000000), (-4266903 / 1000000), (-724341109 / 100000000), (63984491 / 12500000), (-4266903 / 1000000)⟩,
  ⟨3, 3, (25 / 2), (-25 / 2), (28912773 / 2000000), (299332151 / 12500000), (-192603189 / 100000000), (-49840341 / 5000000), (74452367 / 4000000), (-192603189 / 100000000)⟩,
  ⟨3, 4, (-142273003 / 25000000), (850087389 / 100000000), (-41446821 / 12500000), (2006573549 / 100000000), (-192603189 / 100000000), (-41446821 / 12500000), (-2993426451 / 100000000), (109241609 / 100000000)⟩,
  ⟨3, 9, (-581002817 / 100000000), (71197997 / 25000000), (-85802791 / 25000000), (501008127 / 25000000), (-192603189 / 100000000), (-85802791 / 25000000), (501008127 / 25000000), (2393091711 / 100000000)⟩,
  ⟨4, 4, (25 / 2), (-25 / 2), (-153990737 / 50000000), (-3392642511 / 100000000), (109241609 / 100000000), (-113867633 / 25000000), (-896996907 / 100000000), (109241609 / 100000000)⟩,
  ⟨4, 5, (342731873 / 100000000), (-584983393 / 50000000), (-361506323 / 100000000), (-1243477313 / 50000000), (109241609 / 100000000), (-361506323 / 100000000), (-1243477313 / 50000000), (699605107 / 100000000)⟩,
  ⟨4, 6, (13711009 / 5000000), (-11396239 / 20000000), (-365548213 / 100000000), (-2418562263 / 100000000), (109241609 / 100000000), (-365548213 / 100000000), (-2418562263 / 100000000), (1402645881 / 100000000)⟩,
  ⟨4, 9, (422661151 / 50000000), (298290327 / 100000000), (-331855687 / 100000000), (-93395927 / 3125000), (109241609 / 100000000), (-331855687 / 100000000), (62854073 / 3125000), (2393091711 / 100000000)⟩,
  ⟨5, 5, (25 / 2), (-25 / 2), (1895077253 / 100000000), (-403210939 / 25000000), (699605107 / 100000000), (-218068061 / 50000000), (-2515863247 / 100000000), (699605107 / 100000000)⟩,
  ⟨6, 6, (25 / 2), (-25 / 2), (861223773 / 100000000), (-983875753 / 50000000), (1402645881 / 100000000), (-1485351661 / 100000000), (-2830064519 / 100000000), (1402645881 / 100000000)⟩,
  ⟨7, 7, (25 / 2), (-25 / 2), (312546391 / 10000000), (1056019541 / 50000000), (1495792821 / 100000000), (396133049 / 50000000), (1214159373 / 100000000), (1495792821 / 100000000)⟩,
  ⟨7, 8, (18780847 / 4000000), (44792103 / 10000000), (479411863 / 20000000), (915864321 / 50000000), (1495792821 / 100000000), (479411863 / 20000000), (915864321 / 50000000), (444668917 / 20000000)⟩,
  ⟨8, 8, (25 / 2), (-25 / 2), (2538066581 / 100000000), (1310657819 / 50000000), (444668917 / 20000000), (8197504 / 390625), (160251871 / 100000000), (444668917 / 20000000)⟩,
  ⟨9, 9, (25 / 2), (-25 / 2), (93754003 / 20000000), (1262934379 / 50000000), (2393091711 / 100000000), (-1634354827 / 100000000), (46970109 / 4000000), (2393091711 / 100000000)⟩]

/-- The stack of `test_net.py:105-126`. -/
def stack : List (NetRow ℚ) := [
  ⟨0, 0, (25 / 2), (-25 / 2), (1167431009 / 100000000), (616069633 / 100000000), (1 / 2), (-67929597 / 10000000), (575295187 / 25000000), (1 / 2)⟩,
  ⟨0, 3, (-806427839 / 100000000), (-589623413 / 100000000), (-351633299 / 100000000), (2002193397 / 100000000), (1 / 2), (-351633299 / 100000000), (2002193397 / 100000000), (3 / 2)⟩,
  ⟨0, 4, (-48584699 / 6250000), (874105637 / 100000000), (-330157597 / 100000000), (396519427 / 20000000), (1 / 2), (-330157597 / 100000000), (-603480573 / 20000000), (5 / 2)⟩,
  ⟨0, 9, (-401658553 / 50000000), (277512029 / 100000000), (-349335429 / 100000000), (125006039 / 6250000), (1 / 2), (-349335429 / 100000000), (125006039 / 6250000), (7 / 2)⟩,
  ⟨1, 1, (25 / 2), (-25 / 2), (1890042823 / 100000000), (1093024923 / 100000000), (1 / 2), (261850841 / 100000000), (-32163029 / 4000000), (1 / 2)⟩,
  ⟨1, 2, (138749949 / 100000000), (658735173 / 100000000), (583155727 / 50000000), (124881823 / 50000000), (1 / 2), (583155727 / 50000000), (124881823 / 50000000), (3 / 2)⟩,
  ⟨2, 2, (25 / 2), (-25 / 2), (1751974869 / 100000000), (168569683 / 100000000), (3 / 2), (-724341109 / 100000000), (63984491 / 12500000), (3 / 2)⟩,
  ⟨3, 3, (25 / 2), (-25 / 2), (28912773 / 2000000), (299332151 / 12500000), (3 / 2), (-49840341 / 5000000), (74452367 / 4000000), (3 / 2)⟩,
  ⟨3, 4, (-142273003 / 25000000), (850087389 / 100000000), (-41446821 / 12500000), (2006573549 / 100000000), (3 / 2), (-41446821 / 12500000), (-2993426451 / 100000000), (5 / 2)⟩,
  ⟨3, 9, (-581002817 / 100000000), (71197997 / 25000000), (-85802791 / 25000000), (501008127 / 25000000), (3 / 2), (-85802791 / 25000000), (501008127 / 25000000), (7 / 2)⟩,
  ⟨4, 4, (25 / 2), (-25 / 2), (-153990737 / 50000000), (-3392642511 / 100000000), (5 / 2), (-113867633 / 25000000), (-896996907 / 100000000), (5 / 2)⟩,
  ⟨4, 5, (342731873 / 100000000), (-584983393 / 50000000), (-361506323 / 100000000), (-1243477313 / 50000000), (5 / 2), (-361506323 / 100000000), (-1243477313 / 50000000), (7 / 2)⟩,
  ⟨4, 6, (13711009 / 5000000), (-11396239 / 20000000), (-365548213 / 100000000), (-2418562263 / 100000000), (5 / 2), (-365548213 / 100000000), (-2418562263 / 100000000), (7 / 2)⟩,
  ⟨4, 9, (422661151 / 50000000), (298290327 / 100000000), (-331855687 / 100000000), (-93395927 / 3125000), (5 / 2), (-331855687 / 100000000), (62854073 / 3125000), (7 / 2)⟩,
  ⟨5, 5, (25 / 2), (-25 / 2), (1895077253 / 100000000), (-403210939 / 25000000), (7 / 2), (-218068061 / 50000000), (-2515863247 / 100000000), (7 / 2)⟩,
  ⟨6, 6, (25 / 2), (-25 / 2), (861223773 / 100000000), (-983875753 / 50000000), (7 / 2), (-1485351661 / 100000000), (-2830064519 / 100000000), (7 / 2)⟩,
  ⟨7, 7, (25 / 2), (-25 / 2), (312546391 / 10000000), (1056019541 / 50000000), (1 / 2), (396133049 / 50000000), (1214159373 / 100000000), (1 / 2)⟩,
  ⟨7, 8, (18780847 / 4000000), (44792103 / 10000000), (479411863 / 20000000), (915864321 / 50000000), (1 / 2), (479411863 / 20000000), (915864321 / 50000000), (3 / 2)⟩,
  ⟨8, 8, (25 / 2), (-25 / 2), (2538066581 / 100000000), (1310657819 / 50000000), (3 / 2), (8197504 / 390625), (160251871 / 100000000), (3 / 2)⟩,
  ⟨9, 9, (25 / 2), (-25 / 2), (93754003 / 20000000), (1262934379 / 50000000), (7 / 2), (-1634354827 / 100000000), (46970109 / 4000000), (7 / 2)⟩]

/-- The mesh of `test_mesh.py:51-92`. -/
def mesh : List (MeshRow ℚ) := [
  ⟨0, (-25 / 2), (-67929597 / 10000000), (575295187 / 25000000), (-1908627871 / 100000000), 1, 0⟩,
  ⟨0, (-806427839 / 100000000), (-351633299 / 100000000), (2002193397 / 100000000), (-1908627871 / 100000000), 2, 12⟩,
  ⟨0, (-401658553 / 50000000), (-349335429 / 100000000), (125006039 / 6250000), (-1908627871 / 100000000), 3, 36⟩,
  ⟨0, (-48584699 / 6250000), (-330157597 / 100000000), (396519427 / 20000000), (-1908627871 / 100000000), 4, 21⟩,
  ⟨0, (25 / 2), (1167431009 / 100000000), (616069633 / 100000000), (-1908627871 / 100000000), 0, 4⟩,
  ⟨1, (-25 / 2), (261850841 / 100000000), (-32163029 / 4000000), (-1783233563 / 100000000), 6, 5⟩,
  ⟨1, (138749949 / 100000000), (583155727 / 50000000), (124881823 / 50000000), (-1783233563 / 100000000), 7, 9⟩,
  ⟨1, (25 / 2), (1890042823 / 100000000), (1093024923 / 100000000), (-1783233563 / 100000000), 5, 7⟩,
  ⟨2, (-25 / 2), (-724341109 / 100000000), (63984491 / 12500000), (-4266903 / 1000000), 9, 8⟩,
  ⟨2, (658735173 / 100000000), (583155727 / 50000000), (124881823 / 50000000), (-4266903 / 1000000), 10, 6⟩,
  ⟨2, (25 / 2), (1751974869 / 100000000), (168569683 / 100000000), (-4266903 / 1000000), 8, 10⟩,
  ⟨3, (-25 / 2), (-49840341 / 5000000), (74452367 / 4000000), (-192603189 / 100000000), 12, 11⟩,
  ⟨3, (-589623413 / 100000000), (-351633299 / 100000000), (2002193397 / 100000000), (-192603189 / 100000000), 13, 1⟩,
  ⟨3, (-581002817 / 100000000), (-85802791 / 25000000), (501008127 / 25000000), (-192603189 / 100000000), 14, 37⟩,
  ⟨3, (-142273003 / 25000000), (-41446821 / 12500000), (2006573549 / 100000000), (-192603189 / 100000000), 15, 20⟩,
  ⟨3, (25 / 2), (28912773 / 2000000), (299332151 / 12500000), (-192603189 / 100000000), 11, 15⟩,
  ⟨4, (-25 / 2), (-113867633 / 25000000), (-896996907 / 100000000), (109241609 / 100000000), 17, 16⟩,
  ⟨4, (13711009 / 5000000), (-365548213 / 100000000), (-2418562263 / 100000000), (109241609 / 100000000), 18, 27⟩,
  ⟨4, (342731873 / 100000000), (-361506323 / 100000000), (-1243477313 / 50000000), (109241609 / 100000000), 19, 24⟩,
  ⟨4, (422661151 / 50000000), (-331855687 / 100000000), (-93395927 / 3125000), (109241609 / 100000000), 20, 38⟩,
  ⟨4, (850087389 / 100000000), (-41446821 / 12500000), (-2993426451 / 100000000), (109241609 / 100000000), 21, 14⟩,
  ⟨4, (874105637 / 100000000), (-330157597 / 100000000), (-603480573 / 20000000), (109241609 / 100000000), 22, 3⟩,
  ⟨4, (25 / 2), (-153990737 / 50000000), (-3392642511 / 100000000), (109241609 / 100000000), 16, 22⟩,
  ⟨5, (-25 / 2), (-218068061 / 50000000), (-2515863247 / 100000000), (699605107 / 100000000), 24, 23⟩,
  ⟨5, (-584983393 / 50000000), (-361506323 / 100000000), (-1243477313 / 50000000), (699605107 / 100000000), 25, 18⟩,
  ⟨5, (25 / 2), (1895077253 / 100000000), (-403210939 / 25000000), (699605107 / 100000000), 23, 25⟩,
  ⟨6, (-25 / 2), (-1485351661 / 100000000), (-2830064519 / 100000000), (1402645881 / 100000000), 27, 26⟩,
  ⟨6, (-11396239 / 20000000), (-365548213 / 100000000), (-2418562263 / 100000000), (1402645881 / 100000000), 28, 17⟩,
  ⟨6, (25 / 2), (861223773 / 100000000), (-983875753 / 50000000), (1402645881 / 100000000), 26, 28⟩,
  ⟨7, (-25 / 2), (396133049 / 50000000), (1214159373 / 100000000), (1495792821 / 100000000), 30, 29⟩,
  ⟨7, (18780847 / 4000000), (479411863 / 20000000), (915864321 / 50000000), (1495792821 / 100000000), 31, 33⟩,
  ⟨7, (25 / 2), (312546391 / 10000000), (1056019541 / 50000000), (1495792821 / 100000000), 29, 31⟩,
  ⟨8, (-25 / 2), (8197504 / 390625), (160251871 / 100000000), (444668917 / 20000000), 33, 32⟩,
  ⟨8, (44792103 / 10000000), (479411863 / 20000000), (915864321 / 50000000), (444668917 / 20000000), 34, 30⟩,
  ⟨8, (25 / 2), (2538066581 / 100000000), (1310657819 / 50000000), (444668917 / 20000000), 32, 34⟩,
  ⟨9, (-25 / 2), (-1634354827 / 100000000), (46970109 / 4000000), (2393091711 / 100000000), 36, 35⟩,
  ⟨9, (277512029 / 100000000), (-349335429 / 100000000), (125006039 / 6250000), (2393091711 / 100000000), 37, 2⟩,
  ⟨9, (71197997 / 25000000), (-85802791 / 25000000), (501008127 / 25000000), (2393091711 / 100000000), 38, 13⟩,
  ⟨9, (298290327 / 100000000), (-331855687 / 100000000), (62854073 / 3125000), (2393091711 / 100000000), 39, 19⟩,
  ⟨9, (25 / 2), (93754003 / 20000000), (1262934379 / 50000000), (2393091711 / 100000000), 35, 39⟩]

def nearRow (a b : NetRow ℚ) : Bool :=
  decide (a.A = b.A) && decide (a.B = b.B) && near a.sA b.sA && near a.sB b.sB && near a.xA b.xA && near a.yA b.yA &&
  near a.zA b.zA && near a.xB b.xB && near a.yB b.yB && near a.zB b.zB

def nearNode (a b : MeshRow ℚ) : Bool :=
  decide (a.fiber = b.fiber) && near a.s b.s && near a.x b.x && near a.y b.y && near a.z b.z &&
  decide (a.beam = b.beam) && decide (a.constraint = b.constraint)

def agree {α β : Type} (p : α → β → Bool) : List α → List β → Bool
  | [], [] => true
  | a :: l, b :: m => p a b && agree p l m
  | _, _ => false

/-- Heights of the fibers in the stack of the test. -/
def heights : List ℚ := (List.range 10).map (fun (k : ℕ) => ((stack.find? (fun r => r.A = (k : Int))).map (·.zA)).getD 0)

/-- The outcome is a net with (nearly) the given rows. -/
def isNet (o : Except Err (Net ℚ)) (rows : List (NetRow ℚ)) : Bool :=
  match o with
  | .ok n => agree nearRow n.rows rows && decide (n.attrs.n = some 10) && decide (n.attrs.size = some 50) &&
      decide (n.attrs.periodic = some true)
  | .error _ => false

/-- The outcome is a mesh with (nearly) the given rows. -/
def isMesh (o : Except Err (Mesh ℚ)) (rows : List (MeshRow ℚ)) : Bool :=
  match o with
  | .ok m => agree nearNode m.rows rows && decide (m.attrs.n = some 10) && decide (m.attrs.size = some 50) &&
      decide (m.attrs.periodic = some true)
  | .error _ => false

/-- `assert Mat(mat).check()` (`test_mat.py:68`). -/
example : matCheck mat.frame = .ok () := by decide +kernel

/-- `equal(Net(Mat(10)), net)` (`test_net.py:78`). -/
example : isNet (netNew mat) net = true := by decide +kernel

/-- `equal(Mesh(Net(Mat(10))), mesh)` (`test_mesh.py:98`). -/
example : isMesh (netNew mat >>= meshNew) mesh = true := by decide +kernel

/-- The printed net and mesh pass the checks (`test_net.py:80`, `test_mesh.py:100`). -/
example : netCheck (Net.frame ⟨net, { n := some 10, size := some 50, periodic := some true }⟩) = .ok () := by
  decide +kernel
example : meshCheck (Mesh.frame ⟨mesh, { n := some 10, size := some 50, periodic := some true }, none⟩) = .ok () := by
  decide +kernel

/-- The heights of the printed stack are those of the greedy pass, hence (`C16_greedy`) of the linear program. -/
example : ∀ k < 10, Spec.greedy mat net (fun i => Spec.thick mat i / 2) k = heights.getD k 0 := by decide +kernel

/-- `equal(Stack(Mat(10), Net(Mat(10))), stack)` (`test_net.py:132`), for a solver finding these heights. -/
example : isNet ((netNew mat >>= fun n => stackNew (fun _ => some heights) mat n none).map Prod.snd) stack = true := by
  decide +kernel

/-- Empty objects pass the checks (`test_mat.py:39-41`, `test_net.py:40-42`, `test_mesh.py:40-42`). -/
example : matCheck (Mat.frame (K := ℚ) ⟨[], { n := some 0, size := some 50 }⟩) = .ok () ∧
    netCheck (Net.frame (K := ℚ) ⟨[], { n := some 0, size := some 50, periodic := some true }⟩) = .ok () ∧
    meshCheck (Mesh.frame (K := ℚ) ⟨[], { n := some 0, size := some 50, periodic := some true }, none⟩) = .ok () := by
  decide +kernel

/-! The three matrices printed in the documentation of `stiffness` (`model.py:82-114`), for one fiber of length, width and
thickness 1 along the x axis; the code multiplies by `4 / pi`. -/

/-- One fiber with the given moduli. -/
def single (G : ℚ) (E : WithTop ℚ) : Mat ℚ :=
  { fibers := [⟨1, 1, 1, 0, 0, 0, 1, 0, 0, G, E⟩], attrs := { n := some 1, size := some 50 } }

/-- `4 / np.pi * stiffness(mat, Mesh(Net(mat)), coupling=1)[0].todense()`. -/
def printed (G : ℚ) (E : WithTop ℚ) : Option (List (List (Cell ℚ))) :=
  ((do
    let net ← netNew (single G E)
    let mesh ← meshNew net
    stiffness (single G E) mesh none none 1) : Except Err _).toOption.map (fun M =>
      (List.range M.nrows).map (fun r => (List.range M.ncols).map (fun c => Cell.fin (4 / npPi) * M.get r c)))

/-- "Linear model" (`model.py:85-92`). -/
example : printed 1 ⊤ = some
    [[.fin 1, .fin (1 / 2), .fin (-1), .fin (1 / 2)],
     [.fin (1 / 2), .pinf, .fin (-1 / 2), .ninf],
     [.fin (-1), .fin (-1 / 2), .fin 1, .fin (-1 / 2)],
     [.fin (1 / 2), .ninf, .fin (-1 / 2), .pinf]] := by
  decide +kernel

/-- "Timoshenko model" (`model.py:94-103`): 1.33333333 and 0.83333333 are 4/3 and 5/6. -/
example : printed 2 ((2 : ℚ) : WithTop ℚ) = some
    [[.fin 1, .fin (1 / 2), .fin (-1), .fin (1 / 2)],
     [.fin (1 / 2), .fin (4 / 3), .fin (-1 / 2), .fin (-5 / 6)],
     [.fin (-1), .fin (-1 / 2), .fin 1, .fin (-1 / 2)],
     [.fin (1 / 2), .fin (-5 / 6), .fin (-1 / 2), .fin (4 / 3)]] := by
  decide +kernel

/-- "Euler model" (`model.py:105-114`), up to the eight printed decimals. -/
example : (printed (10 ^ 12) ((12 : ℚ) : WithTop ℚ)).any (fun M =>
    agree (agree (fun (a : Cell ℚ) (b : ℚ) => match a with | .fin a => decide (|a - b| < 1 / 10 ^ 8) | _ => false)) M
      [[12, 6, -12, 6], [6, 4, -6, 2], [-12, -6, 12, -6], [6, 2, -6, 4]]) = true := by
  decide +kernel

end Fibermat.RepoTests
