import Verif.Model.Exog
import Verif.Proof.Except

/-! `gen_prob_partner` as two tables that are read separately. -/

set_option linter.unusedSectionVars false

namespace Soepy
variable {K : Type} [Field K] [LinearOrder K]

/-- One of the two tables: its periods, then its shape. -/
def partnerTable (rows : List (Nat × K)) (numPeriods numEduc : Nat) : Except PyErr (List (List K)) :=
  if (List.range numPeriods).any (fun t => !(rows.any fun r => r.1 == t)) then
    .error (.keyError "period")
  else
    let values := (rows.filter fun r => decide (r.1 < numPeriods)).map Prod.snd
    if values.length ≠ numPeriods * numEduc then .error (.valueError "cannot reshape array")
    else .ok (reshape numPeriods numEduc values)

theorem partnerTable_ok {rows : List (Nat × K)} {T E : Nat} {l : List (List K)} :
    partnerTable rows T E = .ok l ↔ ∃ v, partnerRows rows T = .ok v ∧ partnerReshape v T E = .ok l := by
  unfold partnerTable partnerRows
  split_ifs with h
  · constructor
    · intro h; cases h
    · rintro ⟨_, h, -⟩; cases h
  · constructor
    · exact fun h => ⟨_, rfl, h⟩
    · rintro ⟨v, h1, h2⟩
      obtain rfl := Except.ok.inj h1
      exact h2

theorem genProbPartner_ok {f : InputFiles K} {spec : ModelSpec K} {l : List (List (Fin 2 → Fin 2 → K))} :
    genProbPartner f spec = .ok l ↔ ∃ sep arr,
      partnerTable f.partner_separation spec.num_periods spec.num_educ_levels = .ok sep ∧
      partnerTable f.partner_arrival spec.num_periods spec.num_educ_levels = .ok arr ∧
      l = List.zipWith (List.zipWith fun a s => ![![1 - a, a], ![s, 1 - s]]) arr sep := by
  unfold genProbPartner
  simp only [partnerTable_ok]
  constructor
  · intro h
    obtain ⟨v, h1, h⟩ := bind_ok.1 h
    obtain ⟨v', h2, h⟩ := bind_ok.1 h
    obtain ⟨arr, h3, h⟩ := bind_ok.1 h
    obtain ⟨sep, h4, h⟩ := bind_ok.1 h
    exact ⟨sep, arr, ⟨v, h1, h4⟩, ⟨v', h2, h3⟩, (Except.ok.inj h).symm⟩
  · rintro ⟨sep, arr, ⟨v, h1, h4⟩, ⟨v', h2, h3⟩, rfl⟩
    rw [h1, ok_bind, h2, ok_bind, h3, ok_bind, h4, ok_bind]

/-- Looking at the periods of the first table beforehand makes no difference. -/
theorem genProbPartner_first (f : InputFiles K) (spec : ModelSpec K) :
    genProbPartner f spec = (partnerRows f.partner_separation spec.num_periods >>= fun _ => genProbPartner f spec) := by
  unfold genProbPartner
  cases partnerRows f.partner_separation spec.num_periods <;> rfl

end Soepy
