import Verif.Model.Mat

/-! # Model of numpy's global random generator

`np.random.seed(seed)` and `np.random.uniform` (`mat.py:199-212`, `logo.py:23-26`) use the Mersenne Twister of
`numpy/random/src/mt19937/mt19937.c` (numpy is not part of `/repo`; written from its published source).  Words are `uint32_t`. -/

namespace Fibermat

/-- A word of 32 bits. -/
abbrev Word := BitVec 32

/-- State of the generator: `key[624]` and the position of the next word. -/
structure MT where
  key : List Word
  pos : ℕ
  deriving DecidableEq

/-- The words written by the loop of `mt19937_seed` from position `pos` on: `key[pos] = seed;
seed = (1812433253 * (seed ^ (seed >> 30)) + pos + 1) & 0xffffffff`. -/
def mtSeedLoop : ℕ → ℕ → Word → List Word
  | 0, _, _ => []
  | k + 1, pos, seed => seed :: mtSeedLoop k (pos + 1) (1812433253 * (seed ^^^ (seed >>> 30)) + BitVec.ofNat 32 (pos + 1))

/-- `mt19937_seed`. -/
def mtSeed (seed : Word) : MT := { key := mtSeedLoop 624 0 seed, pos := 624 }

/-- One pass of the loops of `mt19937_gen`, which overwrite `key[i]`: `y = (key[i] & 0x80000000) | (key[i + 1] & 0x7fffffff);
key[i] = key[i + 397] ^ (y >> 1) ^ (-(y & 1) & 0x9908b0df)`, indices modulo 624. -/
def mtGenStep (key : List Word) (i : ℕ) : List Word :=
  let y := (key.getD i 0 &&& 0x80000000) ||| (key.getD ((i + 1) % 624) 0 &&& 0x7fffffff)
  key.set i (key.getD ((i + 397) % 624) 0 ^^^ (y >>> 1) ^^^ (-(y &&& 1) &&& 0x9908b0df))

/-- `mt19937_gen`. -/
def mtGen (key : List Word) : List Word := (List.range 624).foldl mtGenStep key

/-- The tempering at the end of `mt19937_next`. -/
def mtTemper (y : Word) : Word :=
  let y := y ^^^ (y >>> 11)
  let y := y ^^^ ((y <<< 7) &&& 0x9d2c5680)
  let y := y ^^^ ((y <<< 15) &&& 0xefc60000)
  y ^^^ (y >>> 18)

/-- `mt19937_next`. -/
def mtNext (s : MT) : Word × MT :=
  let s := if s.pos = 624 then { key := mtGen s.key, pos := 0 } else s
  (mtTemper (s.key.getD s.pos 0), { s with pos := s.pos + 1 })

variable {K : Type} [Field K]

/-- `mt19937_next_double`: `a = next() >> 5, b = next() >> 6; return (a * 67108864.0 + b) / 9007199254740992.0`. -/
def mtDouble (s : MT) : K × MT :=
  let a := mtNext s
  let b := mtNext a.2
  ((((a.1 >>> 5).toNat : K) * 67108864 + ((b.1 >>> 6).toNat : K)) / 9007199254740992, b.2)

/-- The global generator `np.random`; `np.random.seed` converts an accepted seed to a word. -/
def numpyRng : Rng MT K := { seed := fun k => mtSeed (BitVec.ofInt 32 k), next := mtDouble }

end Fibermat
