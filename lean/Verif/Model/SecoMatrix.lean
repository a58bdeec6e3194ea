import Verif.Model.SecoTraining
import Verif.Model.SparseData

/-!
# Model of predictions of separate-and-conquer algorithms for the rows of a sparse feature matrix

Source: `/repo/cpp/subprojects/seco/src/mlrl/seco/prediction/predictor_binary_output_wise.cpp`.
-/

namespace MLRL.SecoMatrix

open SparseData

variable {K : Type}

/-- A row of a `CsrView` is passed to the dense predictor, predictor_binary_output_wise.cpp:70-94. -/
def predictDense [Zero K] [LT K] [DecidableLT K] (numLabels : Nat) (model : RuleList (Predictor.Rule K)) (maxRules : Nat) (csr : SparseView) (e : Nat) :
    Res (List (Option Bool)) := do
  let row ← csr.slice e
  DecisionList.predictDenseCsr numLabels csr.numMinor model maxRules row (some csr.sparseValue)

/-- A row of a `CsrView` is passed to the sparse predictor, predictor_binary_output_wise.cpp:308-331. -/
def predictSparse [Zero K] [DecidableEq K] (numLabels : Nat) (model : RuleList (Predictor.Rule K)) (maxRules : Nat) (csr : SparseView) (e : Nat) :
    Res (List Nat) := do
  let row ← csr.slice e
  DecisionList.predictSparseCsr numLabels csr.numMinor model maxRules row (some csr.sparseValue)

end MLRL.SecoMatrix
