import Verif.Model.Anm6

/-! # Model of the example environments (`examples/simple_env.py`, `examples/custom_anm6.py`) -/

namespace Anm

section
variable {K ρ : Type} [Field K] [LinearOrder K]

/-- The functions of `numpy.random` that the examples use.  They draw from numpy's global generator, which
is not the generator of the environment and is not seeded by `reset`; simplified: the state of both is one
value `ρ`, and what `seeded` makes of the global part is arbitrary (`Model/Generators.lean` separates the two). -/
structure NumpyRandom (K ρ : Type) where
  /-- `np.random.rand(1)[0]`. -/
  rand : ρ → X K × ρ
  /-- `np.random.randint(low, high)`. -/
  randint : ρ → ℤ → ℤ → ℤ × ρ

/-- `np.random.rand(n)`. -/
def NumpyRandom.rands (g : NumpyRandom K ρ) : ℕ → ρ → List (X K) × ρ
  | 0, r => ([], r)
  | n + 1, r => ((g.rand r).1 :: (g.rands n (g.rand r).2).1, (g.rands n (g.rand r).2).2)

/-- External code used by the example environments. -/
structure ExampleWorld (K ρ : Type) where
  sim : Ctx K
  box : List (X K) → List (X K) → Except PyErr Unit
  seeded : ℤ → ρ
  fresh : ρ
  rng : Rng K ρ
  np : NumpyRandom K ρ

/-! ## `examples/simple_env.py` -/

/-- `network` (`simple_env.py:20-30`). -/
def simpleNet : Network K :=
  Network.ofLists (.fin 100)
    [[cel 0, cel 0, cel 132, cel 1, cel 1], [cel 1, cel 1, cel 33, cel (11/10), cel (9/10)]]
    [[cel 0, cel 1, cel (1/100), cel (1/10), cel 0, cel 3, cel 1, cel 0]]
    [[cel 0, cel 0, cel 0, none, cel 200, cel (-200), cel 200, cel (-200), none, none, none, none, none, none, none],
     [cel 1, cel 1, cel (-1), cel (2/10), cel 0, cel (-10), none, none, none, none, none, none, none, none, none]]

/-- The arguments of `SimpleEnvironment.__init__` (`simple_env.py:36-46`). -/
def simpleArgs : EnvArgs K where
  network := simpleNet
  observation := .state
  nAux := 1
  deltaT := .fin (1/4)
  gamma := .fin (9/10)
  lamb := .fin 100
  auxBounds := some [(.fin 0, .fin 10)]
  clipping := some (some (.fin 1), some (.fin 100))
  seed := some 1

/-- `SimpleEnvironment.init_state` (`simple_env.py:48-55`); `s` is the simulator. -/
def simpleInit (g : NumpyRandom K ρ) (s : Sim K) (r : ρ) : List (X K) × ρ :=
  g.rands (2 * s.nDevice + s.nDes + s.nNonSlackGen + 1) r

/-- `SimpleEnvironment.next_vars` (`simple_env.py:57-62`). -/
def simpleNext (g : NumpyRandom K ρ) (r : ρ) : List (X K) × ρ :=
  let (x, r) := g.rand r
  let (n, r) := g.randint r 0 10
  ([.fin (-10) * x, .fin (n : K)], r)

/-- The hooks and the external code of a `SimpleEnvironment` whose simulator is `s` (possibly before some
use). -/
def simpleCtx (w : ExampleWorld K ρ) (s : Sim K) : EnvCtx K ρ where
  sim := w.sim
  box := w.box
  seeded := w.seeded
  fresh := w.fresh
  initState := fun r => .ok (simpleInit w.np s r)
  nextVars := fun _ r => .ok (simpleNext w.np r)

/-! ## `examples/custom_anm6.py` -/

/-- The arguments of `CustomANM6Environment.__init__` (`custom_anm6.py:24-34`). -/
def customArgs : EnvArgs K where
  network := anm6Net
  observation := .state
  nAux := 1
  deltaT := .fin (1/4)
  gamma := .fin (9/10)
  lamb := .fin 100
  auxBounds := some [(.fin 0, .fin 10)]
  clipping := some (some (.fin 1), some (.fin 100))
  seed := some 1

/-- `CustomANM6Environment.init_state` (`custom_anm6.py:36-48`); `s` is the simulator. -/
def customInit (g : NumpyRandom K ρ) (s : Sim K) (r : ρ) : List (X K) × ρ :=
  let (v, r) := g.rands (2 * s.nDevice + s.nDes + s.nNonSlackGen) r
  (v ++ [.fin 0], r)

/-- `CustomANM6Environment.next_vars` (`custom_anm6.py:50-72`). -/
def customNext [FloorRing K] (g : NumpyRandom K ρ) (st : List (X K)) (r : ρ) : Except PyErr (List (X K) × ρ) := do
  let (x1, r) := g.rand r                                                   -- :55
  let (x2, r) := g.rand r                                                   -- :58
  let (x3, r) := g.rand r                                                   -- :61
  let (x4, r) := g.rand r                                                   -- :64
  let (x5, r) := g.rand r                                                   -- :67
  let a ← pyGet st (-1)                                                     -- :70
  let t ← (X.fmod (a + .fin 1) (.fin 24 / .fin (1/4))).toInt
  pure ([.fin (-10) * x1, .fin 30 * x2, .fin (-30) * x3, .fin 50 * x4, .fin (-30) * x5, .fin (t : K)], r)

/-- The hooks and the external code of a `CustomANM6Environment` whose simulator is `s` (possibly before
some use). -/
def customCtx [FloorRing K] (w : ExampleWorld K ρ) (s : Sim K) : EnvCtx K ρ where
  sim := w.sim
  box := w.box
  seeded := w.seeded
  fresh := w.fresh
  initState := fun r => .ok (customInit w.np s r)
  nextVars := customNext w.np

end

end Anm
