# Formal model of soepy in Lean 4 — design

## 1. What is modelled, and how

Numbers. soepy computes with IEEE floats (NumPy / JAX). The model computes in an arbitrary
ordered field `K` (`Field`, `LinearOrder`, `FloorRing`), with `exp`, `log`, `pow` supplied by a class
`Transc K`. Theorems that do not need laws of `exp`/`pow` hold for every `K`; theorems that do are
stated for `ℝ` with `Real.exp`, `Real.log`, `Real.rpow`. `Model/Rounded` repeats some functions (experience,
both interpolations, taxes, remaining shares) with a rounding after every operation, and `Model/RoundedSolve` and
`Model/RoundedFlow` the solver, `Model/RoundedSim` a simulated agent; elsewhere rounding is not modelled. Overflow, NaN and infinities are **not** modelled; NaN used as a *marker* (missing wage, unfilled initial condition, child bin outside
all bins) is modelled with `Option`.

Arrays. A NumPy/JAX array is a `List` (rows in order); an axis of fixed small size (3 choices, 2x2
branches, 4 tax brackets) is a function from `Fin n`. `jax.vmap` and broadcasting are pointwise `map`.
NumPy indexing is `npIndex` (negative indices wrap, out of range is `IndexError`), JAX indexing is
`jget` (negative wraps, then clamps). Exceptions are values (`Except PyErr`).

Random numbers. NumPy's global generator is an abstract state machine `Rng S K` (`seed`, `choice`,
`binomial`, `normal`). Nothing about distributions is assumed; the contract used in some theorems
(`RngLaws`: sizes, ranges, probability-zero events do not happen) is an explicit hypothesis.  Only C103 to C105, C107 and C110 to C117 speak of
distributions: their hypotheses say that the numbers delivered are independent and normal (C110: independent draws of education; C111: wage shocks without atoms; C112: one normal shock independent of the agent's state; C113 and C116: the shocks of an agent are independent over periods; C114, C115 and C117: also over agents).

Files. Pickled data frames are values handed to the `gen_*` functions (a list of rows).

Layout: `Verif/Model/*` the code, function by function, each with file and line citations;
`Verif/Spec/*` small specifications that do not use the model's helpers; `Verif/Proof/*` lemmas;
`Verif/Props/*` the property theorems, with a non-vacuity `example` beside each.

## 2. Plan per property

| Id | What is modelled | How it is proved |
|----|------------------|------------------|
| C01-C04, C06 | `create_discrete_state_space` as the five nested loops with mutable indexer and counter; `create_child_indexes`, the solver's reshape and shift | loop invariant: fold over a duplicate-free list of cells; closed-form position; NumPy wrap-around of index -1 |
| C05 | `define_child_age_update_rule` | induction over periods |
| C07 | `construct_covariates`, `pd.cut` as search over bins | case analysis |
| C08-C12 | `experience_stock.py` | ordered field algebra |
| C13, C14 | `prepare_simulation_data` | false of the code: negation with witness, `_partial` for the true part |
| C15 | `linear_interp_1d` with `searchsorted` as count of nodes <= x | list induction on sorted grids |
| C16 | `_interp_uniform_grid` | equality with C15 function on the uniform grid; negation for other grids |
| C17, C30 | continuation values | convex-combination lemmas |
| C18-C22 | both tax modules, `create_tax_parameters` | case analysis, slope chaining for convexity |
| C23-C25 | `non_employment.py` with literal mask arithmetic | case analysis |
| C26, C51 | decision logic with exceptions | case analysis on all strings / key sets |
| C27, C28 | whole solver: state space, reshape, shift, reversed scan, flip, flatten | refinement to a recursive Bellman specification, induction over the horizon |
| C29 | per-draw maximum and weighted sum | list induction |
| C31, C32, C33 | two runs of solver and simulator | relational induction |
| C34-C37, C39, C41, C43, C54, C55, C60 | simulation loop as state machine over periods | invariants by induction over periods |
| C38, C42, C59 | generator state threading | relational induction |
| C40, C45, C46 | solver versus simulator | false of the code in part: negation with witness, `_partial` |
| C44 | int8 cast | true in range, negation outside |
| C47 | `simulate`, `get_simulate_func` | unfolding, call-history induction |
| C48 | both flow-utility implementations | equality under explicit hypotheses |
| C49 | string sorted parameter dictionaries | permutation/sortedness; negation for 11 or more types |
| C50 | `gen_*` functions, type shares, weights | list algebra, convolution sum |
| C52 | heap model of nested Python dictionaries with `deepcopy` and in-place `/=` | frame argument |
| C53 | `create_child_care_costs`, `get_child_care_cost_for_choice` | case analysis |
| C56, C57, C58 | utilities, wages, lagged choice | real analysis / case analysis |
| C61-C63 | solver with two parameter sets or specifications | monotonicity of the Bellman operator, induction over the horizon |
| C64 | solver: values of an education group and type do not depend on parameters of other groups | relational induction |
| C65, C66 | `read_model_params`, `read_model_spec`: where every attribute comes from | unfolding of the dictionary operations |
| C67 | `partiable_simulate` | unfolding; equality with the functional interface |
| C68 | order of the draws behind the initial conditions | loop invariant over education levels, masked assignment as `scatter` |
| C69 | everything together | the whole of `simulate` equals a recursive reference simulation (`Spec/Reference.lean`), induction over periods |
| C70 | solver in the Erziehungsgeld regime | explicit counterexamples over ℝ, evaluated through C27 |
| C71 | `_interp_uniform_grid` | positions read lie in the axis; convex combination of two grid values |
| C72 | `pyth_solve` | sign of flow utility (C56) carried through the recursion; joint induction for two discount factors |
| C73 | `pyth_solve` | induction on remaining periods; interpolation, expectation and maximum preserve constant bounds |
| C74 | `pyth_solve`, `simulate` | reference panel (C69) with `delta = 0` does not look at the outlook |
| C75 | `pyth_solve` | budgets are homogeneous of degree one in `Spec.inUnits`, power utility of degree `mu`; induction on remaining periods. Only at solver level: `process_tax_system` hard-codes the schedule of 2007, so `simulate` cannot be given another currency |
| C76 | `pyth_solve`, `simulate` | (a) induction on remaining periods for two economies that agree from `t0` on; the continuation of the last period is zero whatever the probabilities; (b) induction on periods of the reference population of C69 without choices, for two environments related by `Spec.SameUntil` |
| C77 | `simulate`, `get_simulate_func`, the returned function as programs that return or raise (`Model/Effects`) | invariant `Apart`: what is processed, and everything reachable from it, is new; every assignment preserves it, so it holds wherever an exception strikes; sessions by induction, results by a relation between two processes |
| C78 | the same, arguments as file names | loading a file places its objects at the end of memory; embedding of the file's objects (as for `deepcopy`); agreement with `Model/Api` by a simulation relation statement by statement |
| C79 | `get_simulate_func`, the returned function | the two-process relation without agreement on the tables |
| C80 | `simulate` (pairs of rows) | C69 (rows are the reference panel), then monotone resources in the shock; continuation values do not see the shock |
| C81 | `simulate` (pairs of rows) | induction over the plan (C55) carried through the interpolation of the simulator |
| C82 | `simulate` (two runs) | comparison of plans (C62) carried to the panel; entrants do not depend on policy |
| C83 | `pyth_solve`, `simulate` | payoffs of plans defined without maximisation (Spec/Plans); induction over remaining periods in both directions |
| C84 | `simulate` | telescoping sum over the rows of one agent; without risk the continuation value is the value in the one state that can follow (Proof/Lifetime) |
| C85 | `calculate_net_income`, `piecewise_polynomial` (test resource) | case split over the brackets (Props/Gettsim) |
| C86 | `expand_model_spec_dict`, `expand_model_params_dict`, `simulate` | length of a dictionary built row by row; NumPy's check of the length of `p` |
| C87 | `simulate` | loop invariant: the agents before every period are the reference population, so every check of NumPy reads a known cell |
| C88 | `pyth_solve` | the exact problem without a grid is Spec/Exact; errors of one period pass through expectation, maximum and discounting (Proof/GridError); flow utility has bounded slopes in experience if the transcendental functions do (`Tame`, Proof/Slopes), as over the reals |
| C89 | `simulate` | on an even grid and within the unit interval the simulator interpolates like the solver, so the bounds behind C88 hold for rows of the panel; a choice that is optimal for values off by at most E loses at most 2δE |
| C90 | `simulate`, `get_simulate_func` | `Reads` follows the reading of the frame row by row and carries the first missing row (Proof/FrameRows); the required rows are listed in Spec/FrameRows |
| C91 | `random_init`, `simulate` by file names | `Py.Runs` follows `random_init` statement by statement (Proof/RandomFrame, RandomFiles); the specification file is complete (Proof/RandomSpec, by C51, C66), the frame is accepted (C90), so the fixture is `Runnable`; the tests' claims follow from C34, C68 and `C78_by_names` |
| C92 | `create_disc_sum_av_utility` on the data of `simulate` | group sums are sums over the rows of an agent; a life (C84) lists exactly these rows; entry rows are in bijection with agents |
| C93 | `simulate` by names, `cleanup`, `random_init` | `simulateP_fst` writes the result as a function of frame, specification and tables; two processes that agree on these give the same; `glob` patterns are characterised by prefixes and infixes; `C91_simulates` |
| C94 | `get_simulate_func`, `simulate`, the functions that read tables | `Spec.requirements` lists the requirements in order; each read and each calculation of `buildObjects` either stops at the first fault or goes on (Props/Tables) |
| C95, C96 | `next_stock`, `_interp_uniform_grid`, `linear_interp_1d` with a rounding after every operation | `binary p` is proved to be the nearest number with p digits, monotone and idempotent (Proof/Binary); a weight below one shrinks a representable difference even after rounding |
| C97 | `create_tax_parameters`, both versions of `calculate_inc_tax`, `calculate_net_income`, rounded | each bracket is monotone because rounding is; at a limit the largest representable income below it is computed, and three comparisons of closed terms are left to the kernel |
| C98 | `sum` of CPython, the remaining share, NumPy's check | the error of a rounded sum is a representable number (Sterbenz), so the correction is exact; one rounding of the exact sum remains (Proof/RoundedSum) |
| C99 | the same functions | error per operation (`binary_error`); one period contracts old errors, clipping and broken lines do not enlarge them; sums and products of non-negative terms keep relative errors |
| C100 | the solver with rounding (`Model/RoundedSolve`), today's utilities as computed | error of one continuation value (moving the point costs at most the slope, 2V/h), of a sum in any order, of the best choice; geometric series over periods; the table of zeros gives the bound on computed values |
| C101 | a decision of the simulator with rounding (`Model/RoundedChoice`), table from C100, formats of table and stocks may differ | error of the lookup (continuity in the position, so the floor does no harm), of discounting and adding; the best of values off by κ is within 2κ of the best |
| C102 | `init_dict_flat_to_init_dict`, `read_model_spec_init` | the rebuilt object is a specification dictionary in the sense of C51, without `tax_splitting`; `C51_no_tax_splitting` |
| C103 | `get_integration_draws_and_weights`, `pyth_solve` | perturbation of the Bellman recursion, strong law of large numbers, Chebyshev and a union bound over states and grid points; the value of the best choice is measurable with polynomial growth in the shock's exponential, hence square integrable; that the generator delivers independent normal numbers is a hypothesis |
| C104 | `get_integration_draws_and_weights`, `pyth_solve` | exponential moments of a Gauss-Hermite rule are at most those of the normal distribution (Newton interpolation from below, Proof/Quadrature), moments give weak convergence by Lévy's theorem, truncation gives convergence for integrands with finitely many jumps and exponential growth; the value of the best choice is such an integrand (Proof/Piecewise); existence of the rules by diagonalising multiplication by x (Proof/GaussHermite) |
| C105 | `pyth_solve` with `exp_grid` and `num_draws_emax` | slopes of flow utility in experience grow polynomially in the wage, hence have a finite expectation under normal shocks; so the values without approximation have bounded slopes, the interpolation error propagates as in C88, and the triangle inequality adds C103/C104 |
| C106 | the whole solver with rounding (`Model/RoundedFlow` for today's utilities, `Model/RoundedSolve` for the rest), the computed tax schedule | calculus of quantities that are `O(2^(-p) + τ)` away from their exact value as the machine improves (`Proof/Near`): closed under arithmetic, maxima, exp, log, powers and the seamless tax function; where the program jumps, the exact income is off the limit; then C100 |
| C107 | the rows of the panel against the problem without grid and draws (`Spec.trueW`) | C105 bounds the tables at the nodes; true continuation values have bounded slopes, so interpolation adds `O(1/(n-1))`; a choice that is best for values off by `E` loses at most `2 δ E`; the example reads a dictionary over the reals (`Props/TrueChoiceExample`, equations checked by reduction in the kernel) |
| C108 | solver and simulator with rounding (`Model/RoundedSim` for one agent, over one period and over a career) | the calculus of C106 extended to clipping, uniform interpolation (Lipschitz in the point and in the values) and the next stock (`Proof/NearSim`); a positive gap between the best choice and the others outlives errors below half of it; induction over the dates of the career |
| C109 | panels (`Spec.Output`) against the rounded solver and simulator | consecutive rows are the path of C108 (`career_path`, from C37 and C69); the inputs of the solver are those of `buildCached`, whose tables of probabilities come from the files; finitely many careers share constants |
| C110 | education mix of the panel | rows of a period counted by agent (C34); with independent draws the strong law of large numbers and Hoeffding's inequality from Mathlib |
| C111 | ties between working and not working | net income is strictly increasing in the wage, so a level of utility is reached at one shock (two with Erziehungsgeld); states and stocks that can occur are countable (`stocks`), hence so are the shocks at which somebody could be indifferent |
| C112 | cutoffs in the shock and probabilities of working | the set of shocks at which somebody works is open (continuity of net income) and closed upwards (C80); ties go to not working, hence the strict inequality |
| C113 | product likelihood of a career | only the values of the normal numbers are random, so births, partners and entry are the same for all outcomes (`demo_same`) and an agent keeps their position in the population; the event of the career is the intersection over periods of events about single shocks |
| C114 | product likelihood of the panel | the events of C113 for different agents concern different entries of the table of shocks |
| C115 | choice frequencies at entry | Hoeffding's inequality for the independent indicators of a choice at entry |
| C116 | conditional choice probabilities | where an agent is depends measurably on the earlier shocks in their column (`subject_measurable`), hence is independent of the shock of the period |
| C117 | independent careers and simulated moments | everything the data show of an agent is measurable in their own column of shocks (`history_measurable`), and columns are independent; deviation by Hoeffding's inequality |
| C118 | negative last child bearing period: slice of the solver's table versus the simulator's comparison | case analysis on the slice end |

## 3. Trusted base

*Kernel and axioms.*  The Lean 4.33.0 kernel.  Every property theorem depends on exactly `propext`,
`Classical.choice` and `Quot.sound`, except `C08_next_stock_in_unit_interval`, `C95_without_rounding`, `C97_allowance` and
`C98_without_rounding`, which depend on `propext` and `Quot.sound` only (checked with `collectAxioms` over all theorems `Soepy.Props.C*`).  No
`axiom`, `sorry`, `native_decide` or `bv_decide` occurs in the project.  Examples use `decide +kernel`,
which is checked by the kernel and adds no axiom.

*The translation.*  The model was written by reading `/repo`; that it says what the Python code does
is not machine-checked.  Each definition in `Verif/Model` cites the lines it models.

*What is modelled.*  Every function of these modules:

| Python | Lean |
|--------|------|
| `soepy/shared/constants_and_indices.py` | `Model/Types` |
| `soepy/shared/experience_stock.py`, `wages.py` | `Model/Experience` |
| `soepy/shared/interpolation.py` | `Model/Interp` |
| `soepy/shared/tax_and_transfers.py`, `tax_and_transfers_jax.py` | `Model/Tax` |
| `soepy/test/resources/gettsim_tax_func.py` (test resource) | `Model/Gettsim` |
| `soepy/test/random_init.py` (test inputs; `namedtuple_to_dict` as the identity, `read_init_file2` as `loadSpec`) | `Model/RandomInit` |
| `soepy/test/resources/aux_funcs.py` (realised utility, cleanup) | `Model/AuxFuncs` |
| `soepy/shared/non_employment.py` | `Model/NonEmployment` |
| `soepy/shared/non_consumption_utility.py` | `Model/Utility` |
| `soepy/shared/numerical_integration.py` | `Model/Rng` |
| `soepy/exogenous_processes/*.py` | `Model/Exog`, `Model/StateSpace` |
| `soepy/pre_processing/model_processing.py`, `tax_and_transfers_params.py` | `Model/Processing`, `Model/Tax`, `Model/Types` |
| `soepy/solve/create_state_space.py`, `covariates.py` | `Model/StateSpace`, `Model/Types` |
| `soepy/solve/solve_python.py`, `emaxs.py`, `validation_solve.py`, `continuous_continuation.py` | `Model/Solve`; with rounding in `Model/RoundedSolve` and `Model/RoundedFlow` (the latter with exp, log and powers of the machine as a parameter) |
| `soepy/simulate/initial_states.py`, `income_sim.py`, `simulate_auxiliary.py`, `constants_sim.py` | `Model/Simulate`, `Model/Interp`; a decision with rounding in `Model/RoundedChoice`, a career with rounding in `Model/RoundedSim` |
| `soepy/simulate/simulate_python.py` | `Model/Api`; with files, memory after exceptions and both kinds of arguments in `Model/Effects` |

*What is not modelled.*

* Floating point: overflow, underflow, infinities and NaN produced by arithmetic, and operations fused by a
  compiler.  Rounding is modelled in `Model/Rounded`, `Model/RoundedSolve`, `Model/RoundedFlow`, `Model/RoundedChoice` and `Model/RoundedSim` only (C95-C101, C106, C108, C109); the other theorems are about exact
  arithmetic.  `0/0` and `x/0` are 0 in the model.  `np.finfo(float).eps` is the number 2^-52.
* The transcendental functions outside ℝ: `exp`, `log`, `pow`, `sqrt` and `pi` are uninterpreted
  (`Transc K`).  Theorems that need a law state it (for instance `∀ x, 0 < Transc.exp x`) or are about ℝ.
* JAX: `jit`, `vmap`, `scan` and functional updates are their mathematical meaning; compilation,
  caching, devices, dtypes and tracing errors are ignored, except that a solver without any state in a
  period raises (JAX rejects reading the first row of an empty array; the model calls it a `TypeError`).
* pandas and pickle: a file is a function from names to lists of rows (index label, value); missing files
  are modelled in `Model/Effects` only, and a file that exists has the expected kind of content.  Rows of the partner tables are taken in stored order.  Column names, categories
  and display options are not modelled.  The output frame is the list of its rows with the columns of
  `LABELS_DATA`; the index of the frame (identifier and period) is part of the row.
* NumPy's generator and SciPy's `roots_hermite`: arbitrary functions.  Every integer is accepted as a seed and every
  number of nodes as a number of nodes (NumPy raises `ValueError` for seeds outside 0 to 2^32-1, SciPy for no node).  Where sizes, ranges or events of
  probability 0 and 1 matter, `RngLaws` is a hypothesis.  Theorems about quadrature assume what they
  need of the weights; C104 assumes that `roots_hermite` returns Gauss-Hermite rules.
* The YAML and pickle formats: a specification file is the graph of objects that `yaml.load` creates from it.
  `Model/Api` takes dictionaries and frames in memory, `Model/Effects` also file names.
* Attributes of named tuples other than those the package reads (including the
  `ValueError` that `namedtuple` raises for a key that is not an identifier), the text of error messages.
* NumPy indexing that reads nothing: an index out of range is not reported if no agent is there to use it.
* Python memory: the specification dictionary lives in a `Store` (a heap of nested dictionaries), so
  that aliasing and mutation are visible; everything else is immutable in the model.  In `Model/Api` a
  call that raises returns no state; `Model/Effects` gives the memory after an exception, while the state in
  which an exception leaves NumPy's generator is arbitrary.
* Child ages outside every bin of `pd.cut`: Python carries a NaN, the model stops with `nanMarker`.
* The rest of `soepy/test`, `soepy/__init__.py` (`test()`), `soepy_config.py`, `__version__.py`.

*Conventions of the theorems.*  `Spec.Output env frame a biased sparse w par spec rows` means that
`simulate` on the parameter frame `frame` and the dictionary at address `a` in the process `w` returned
`rows`; `par` and `spec` are the processed inputs.  `Usable`, `Runnable` and `SolveOk` collect what is asked
of the inputs (at least two increasing grid points, at most three education levels as hard-coded in
the file readers, sorted tax brackets, complete files); examples beside the theorems show inputs that
meet them.

## 4. Where the code differs from what one would expect

Items with a property number are theorems. Items without one were found by reading the code and are visible
in the model, but no theorem states them.

* The solver and the simulator disagree about births: the solver applies the probability of period t to the
  step from t to t+1, the simulator the one of period t+1 (C40).
* They disagree about floors: the solver clips consumption at 1e-14 for employed women only, the
  simulator clips resources at 2^-52 for all choices (C48 states the condition under which flows agree).
* The simulator interpolates as if the experience grid were uniform; with another grid the values differ
  from the solution (C16).
* Initial experience stocks can exceed one, because part-time and full-time years are drawn separately up to
  `init_exp_max` each (C13).  `next_stock` caps the stock at one from the next period on.
* The initial stock is computed with the scale of period 0, so whoever enters later has more years, by the
  stock, than were drawn (C14).
* With `elasticity_scale` other than 1 the unemployment benefit in the simulator differs from the solver's (C45).
* With child benefits of zero, Erziehungsgeld for part-time work differs between the two (C46).
* Education levels and wage shocks are drawn from the same generator state (C59).
* `data_sparse` casts seven integer columns to int8, which wraps above 127 (C44).
* Types and education specific parameters are sorted as strings, so that type 10 comes before type 2
  (C49).
* The number of types in the specification counts the rows of category `shares`; the shares in the
  parameters are the keys that contain `share` (C86: simulate raises if the counts differ).
* In the last period partners are still drawn although nobody lives on; children do not age (C69,
  `Spec.generatorAfter`).
* Wage shocks belong to the position of a row, not to the identifier; `Spec.column` describes the position
  (C54).
* Married women out of work receive no benefits in the `elterngeld` regime after a period without work (C23).
* C61 and C63 are stated for the `elterngeld` regime; C62 has a part for each regime, the `erziehungsgeld` part
  for the flat benefit, its thresholds, child care fees and splitting only.  In the `erziehungsgeld` regime
  eligibility ends at an income threshold, and C61, C63 and the first half of C62 fail there (C70).
* `elasticity_scale` is set to 1 in section SIMULATION unless given there, which hides a value
  given in another section (C66).
* With zero periods `get_solve_function` divides by zero; `pyth_solve` returns if and only if regime and method
  are known and every period has a state (C26).
* `partiable_simulate` accepts `prob_exp_years` and ignores it (C67).
* A last child bearing period below -1 makes NumPy count from the end of the table; the theorems about births
  ask for at least -1.
* In floating point `linear_interp_1d` can miss the value at the last grid point, and exceed all values of the table,
  by a rounding error (C96); net income can fall by a unit in the last place when the wage rises (C97).
* One minus a sum of shares relies on the compensated `sum` of Python 3.12 and later; with older versions shares that
  add up to one can leave a negative share, and drawing fails (C98).
* `CONTINUOUS_EXPERIENCE_CHANGES.md` says that stocks lie in the unit interval, that initial years are drawn by
  convolution and that the initial lagged choice is 0 or 2.  Initial stocks can exceed one (C13), the convolution is
  computed and not used (C67), and fractional years give the lagged choice 1 (C58).
* `test_childless.py:100` and `test_validation_childless.py:91` write `prob_partner[:, 0, 1] = 0` and
  `prob_partner[:, 0, 0] = 1`.  The array has four axes (period, education, old, new), so for education level 0 both
  entries of a row become 0 or 1, and the rows are no longer distributions.  The tests still compare like with like.

## 5. Seeded faults

`seeded/LOG.jsonl` has one line per fault.  A fault is a one-place edit of a definition in a scratch copy of
`Verif/Model`, after which the project is rebuilt.

* `theorems_failed` lists the declarations in which the compiler reported an error.  Lean does not build
  modules that import a failed one, so these are usually lemmas of `Verif/Proof` that equate a model function
  with its independent description in `Verif/Spec`.
* `properties_depending_on_failed` is computed from the unedited project: the property theorems whose proofs
  use a failed declaration.  They were not rebuilt one by one.  A broken proof does not by itself show that the
  statement is false of the edited program; that is only known where it was examined, and then the line has
  a note.
