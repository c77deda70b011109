import Verif.Model.Connect

namespace Verif.Spec

open Verif.Model.Connect

/-- The goroutine that announces a successful `Open` is not late by 800 ms or more. -/
def Prompt (s : St) : Prop :=
  ∀ k, (s.ann k = .sleep ∨ s.ann k = .send ∨ s.ann k = .set) → s.now < s.openTime k + 1000

/-- Executions in which this holds all the time. -/
inductive PromptSteps : St → St → Prop where
  | refl (s : St) : PromptSteps s s
  | tail {s t u : St} (l : Label) : PromptSteps s t → step t l = some u → Prompt u → PromptSteps s u

/-- The port is open and being read. -/
def PortUp (s : St) : Prop := s.loop = .reading

end Verif.Spec
