import Verif.Proof.Reference
import Verif.Proof.Total
import Verif.Props.Entry

/-!
# The simulator computes the reference simulation (C69)
-/

set_option linter.unusedSectionVars false

namespace Soepy.Props
open Soepy
variable {S K : Type} [Field K] [LinearOrder K] [IsStrictOrderedRing K] [FloorRing K] [Transc K]
  {env : Env S K} {frame : Frame K} {a : Nat} {biased sparse : Bool} {w : World S K}
  {par : ModelParams K} {spec : ModelSpec K} {rows : List (OutRow K)}

/-- **C69**  Whatever `simulate` returns is the reference panel: same rows, same order, every column. -/
theorem C69_rows (h : Spec.Output env frame a biased false w par spec rows) (hu : Usable spec par)
    (hlast : -1 ≤ spec.last_child_bearing_period) : rows = Spec.panel env par spec biased := by
  rw [output_panel h hu hlast]
  simp

/-- **C69**  The sparse frame is the reference panel in the sparse format. -/
theorem C69_sparse_rows (h : Spec.Output env frame a biased true w par spec rows) (hu : Usable spec par)
    (hlast : -1 ≤ spec.last_child_bearing_period) :
    rows = (Spec.panel env par spec biased).map Spec.sparseRow := by
  rw [output_panel h hu hlast]
  simp

/-- **C69**  On readable, fitting inputs `simulate` returns, the rows are the reference panel, the generator is
left as the reference simulation leaves it, and the objects in memory are as before (new ones may have been
added). -/
theorem C69_total (laws : RngLaws env.rng) (closed : Closed w.store) (addr : a < w.store.length)
    (params : readModelParams frame = .ok par)
    (spec_ok : ∃ st', readModelSpec w.store a (specNumTypes frame) = .ok (st', spec))
    (h : Runnable env spec par) (hlast : -1 ≤ spec.last_child_bearing_period) (biased : Bool) :
    ∃ new, simulate env frame a biased false w = .ok (Spec.panel env par spec biased,
      { rng := Spec.generatorAfter env par spec biased, store := w.store ++ new }) := by
  obtain ⟨rows, ho⟩ := simulate_total laws closed addr params spec_ok h biased false
  obtain ⟨par', spec', st1, c, g1, g2, h1, h2, h3, h4⟩ := (simulate_ok closed addr).1 ho.run
  obtain rfl : par' = par := Except.ok.inj (h1.symm.trans params)
  obtain ⟨st', hsp⟩ := spec_ok
  rw [h2] at hsp
  obtain ⟨-, rfl⟩ := Prod.mk.inj (Except.ok.inj hsp)
  obtain ⟨e1, e2⟩ := runCached_panel laws (buildCached_ok.1 h3) h.usable params hlast h4
  obtain ⟨st2, e, hp, -⟩ := read_again closed addr h2
  obtain ⟨new, hnew⟩ := (readModelSpec_prefix closed addr h2).trans hp
  refine ⟨new, ?_⟩
  unfold simulate
  rw [(getSimulateFunc_ok (w' := { rng := g1, store := st1 })).2 ⟨par', spec', h1, h2, h3⟩, ok_bind]
  refine callSimulateFunc_ok.2 ⟨par', spec', h1, ?_, ?_⟩
  · rw [hnew]; exact e
  · simp only [Bool.false_eq_true, if_false, List.map_id'] at e1
    rw [h4, e1, e2]

/-- **C69**  A function returned by `get_simulate_func`, called with any parameters on the specification it was
built for, returns the reference panel of these parameters. -/
theorem C69_session (laws : RngLaws env.rng) {frame0 : Frame K} {w1 w2 w3 : World S K} {c : Cached K}
    (hf : getSimulateFunc env frame0 a biased w = .ok (c, w1))
    (hspec : ∃ st, readModelSpec w.store a (specNumTypes frame0) = .ok (st, spec))
    (hcall : callSimulateFunc env c sparse frame a w2 = .ok (rows, w3))
    (hspec2 : ∃ st, readModelSpec w2.store a (specNumTypes frame) = .ok (st, spec))
    (params : readModelParams frame = .ok par) (hu : Usable spec par)
    (hlast : -1 ≤ spec.last_child_bearing_period) :
    rows = (Spec.panel env par spec biased).map (fun r => if sparse then Spec.sparseRow r else r) ∧
      w3.rng = Spec.generatorAfter env par spec biased := by
  obtain ⟨par0, spec0, k1, k2, k3⟩ := getSimulateFunc_ok.1 hf
  obtain ⟨par1, spec1, j1, j2, j3⟩ := callSimulateFunc_ok.1 hcall
  obtain ⟨st, hs⟩ := hspec
  rw [k2] at hs
  obtain ⟨-, rfl⟩ := Prod.mk.inj (Except.ok.inj hs)
  obtain ⟨st', hs'⟩ := hspec2
  rw [j2] at hs'
  obtain ⟨-, rfl⟩ := Prod.mk.inj (Except.ok.inj hs')
  obtain rfl : par1 = par := Except.ok.inj (j1.symm.trans params)
  exact runCached_panel laws (buildCached_ok.1 k3) hu params hlast j3

/-- The example simulation is a reference panel with rows: agent 2 enters it in period 1. -/
example [Transc ℚ] (hermite : Nat → List ℚ × List ℚ) (g : Nat) (biased : Bool) :
    ∃ rows, Spec.Output (simEnv exFiles hermite) exFrame 0 biased false (simWorld 4 g) exParams simSpec rows ∧
      rows = Spec.panel (simEnv exFiles hermite) exParams simSpec biased ∧
      ∃ r ∈ Spec.panel (simEnv exFiles hermite) exParams simSpec biased, r.id = 2 ∧ r.period = 1 := by
  obtain ⟨rows, h⟩ := exOutput exFiles_ok hermite biased false g
  have e := C69_rows h ex_usable (by rw [specOf_facts.last]; decide)
  obtain ⟨r, hr, h1, h2, -⟩ := sim_row h 2 1 (by decide) (by decide) (by decide)
  exact ⟨rows, h, e, r, e ▸ hr, h1, h2⟩

end Soepy.Props
