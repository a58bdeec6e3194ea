import Verif.Model.Heuristic

/-! # Specification of heuristics, according to the documentation of `IHeuristic` (heuristic.hpp:12-22 and 29-76) -/

namespace MLRL.Seco

variable {K : Type} [Field K] [LinearOrder K]

/-- All elements are equal to or greater than 0. -/
structure Elements.Nonneg (e : Elements K) : Prop where
  cin : 0 ≤ e.cin
  cip : 0 ≤ e.cip
  crn : 0 ≤ e.crn
  crp : 0 ≤ e.crp
  uin : 0 ≤ e.uin
  uip : 0 ≤ e.uip
  urn : 0 ≤ e.urn
  urp : 0 ≤ e.urp

/-- Ground truth and predictions are inverted. -/
def Elements.invert (e : Elements K) : Elements K :=
  { cin := e.crp, cip := e.crn, crn := e.cip, crp := e.cin, uin := e.urp, uip := e.urn, urn := e.uip, urp := e.uin }

/-- The rule does not cover any elements. -/
def Elements.NothingCovered (e : Elements K) : Prop := e.cin + e.cip + e.crn + e.crp = 0

/-- The rule covers, in addition, labels for which its prediction is correct. -/
def Elements.coverCorrect (e : Elements K) (irrelevant relevant : K) : Elements K :=
  { e with cin := e.cin + irrelevant, uin := e.uin - irrelevant, crp := e.crp + relevant, urp := e.urp - relevant }

/-- The rule covers, in addition, labels for which its prediction is incorrect. -/
def Elements.coverIncorrect (e : Elements K) (irrelevant relevant : K) : Elements K :=
  { e with cip := e.cip + irrelevant, uip := e.uip - irrelevant, crn := e.crn + relevant, urn := e.urn - relevant }

/-- The values of parameters the configuration accepts (heuristic_f_measure.cpp:75, heuristic_m_estimate.cpp:78). -/
def Heuristic.Accepted : Heuristic K → Prop
  | .fMeasure (some beta) => 0 ≤ beta
  | .mEstimate (some m) => 0 ≤ m
  | _ => True

end MLRL.Seco
