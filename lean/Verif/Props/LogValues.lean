import Verif.Model.Logs
import Verif.Spec.Logs
import Verif.Proofs.KeccakFast
/-! # C96: the event hashes, evaluated -/

namespace Verif.Props.Logs
open Verif Verif.Logs
open Verif.Interfaces (SolType signature)
open Verif.Spec.Keccak (keccak256)

set_option maxRecDepth 100000 in
/-- **C96** The event hashes are the published ones. -/
theorem C96_published_topics : ∀ p ∈ Spec.Logs.publishedTopics, Spec.Logs.eventHash keccak256 p.1 = p.2 := by
  rw [Proofs.KeccakFast.keccak256_eq]; decide +kernel

end Verif.Props.Logs
