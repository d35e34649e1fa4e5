import Verif.Model.DesignId

/-!
The sentences of the description of a design, and what they say.
-/

namespace Feedx
namespace Spec

/-- A sentence: a fixed beginning, something, a fixed end. -/
structure Sentence where
  before : String
  after : String

/-- The sentence about something. -/
def Sentence.about (s : Sentence) (x : List Char) : List Char := s.before.toList ++ x ++ s.after.toList

def typeSentence : Sentence := ⟨"\tExperiment type: ", ""⟩
def metricSentence : Sentence := ⟨"\tPrimary metric: ", ""⟩
def pretestSentence : Sentence := ⟨"\tNumber of weeks of data before start of experiment used for analysis: ", ""⟩
def runtimeSentence : Sentence := ⟨"\tTotal experiment runtime weeks: ", ""⟩
def swapSentence : Sentence := ⟨"\tControl and treatment to be swapped ", " weeks after starting the experiment"⟩
def washoutCountSentence : Sentence := ⟨"\tNumber of crossover washout weeks to ignore at start of each period: ", ""⟩
def washoutWeeksSentence : Sentence := ⟨"\tWeeks ", " are the washout weeks to be excluded from the analysis"⟩
def itemsSentence : Sentence := ⟨"\tNumber of items: ", ""⟩
def noTrimSentence : List Char := "\tNo hero / outlier trimming used".toList
def eligibleSentence : Sentence := ⟨"\tNumber of items eligible for experimentation (before trimming): ", ""⟩
def inExperimentSentence : Sentence := ⟨"\tNumber of items remaining after trimming for the experiment: ", ""⟩
def inAnalysisSentence : Sentence := ⟨"\tNumber of items remaining after trimming for the analysis: ", ""⟩
def topSentence (metric : String) : Sentence :=
  ⟨"\tTop ", " of items with highest " ++ metric ++ " in pre-test period will not be included in experiment"⟩
def bottomSentence (metric : String) : Sentence :=
  ⟨"\tBottom ", " items with lowest " ++ metric ++ " in pre-test period will not be included in experiment"⟩
def alphaSentence : Sentence := ⟨"\tAlpha threshold: ", ""⟩
def powerSentence : Sentence := ⟨"\tPower: ", ""⟩
def saltSentence : Sentence := ⟨"\tCoinflip salt: ", ""⟩

/-- The kind of an experiment in words. -/
def kind {K : Type} (p : DesignParams K) : String :=
  match p.isCrossover, decide (p.pretest = 0) with
  | true, _ => "crossover experiment"
  | false, false => "regular experiment (CUPED adjusted)"
  | false, true => "regular experiment"

end Spec
end Feedx
