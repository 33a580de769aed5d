import Verif.X509.Many
import Verif.X509.IssueExample
/-! A case of C147: the two certificates of `IssueExample`, one after the other, and in a PEM block. -/
namespace Verif.X509.IssueExample
open Verif

/-- the hypotheses of C147 -/
example : ∃ ca leaf, parseAllCerts PE (caDer ++ leafDer) = some [ca, leaf] ∧ parseAllCerts PE caDer = some [ca] ∧ parseAllCerts PE leafDer = some [leaf] ∧
    pem2Cert PE (fun b => some (⟨[67, 69, 82, 84, 73, 70, 73, 67, 65, 84, 69], false, b⟩, [1])) caDer = some ca := by
  have h1 : (parse PE caDer).isSome = true := by decide +kernel
  have h2 : (parse PE leafDer).isSome = true := by decide +kernel
  obtain ⟨ca, hca⟩ := Option.isSome_iff_exists.1 h1
  obtain ⟨leaf, hleaf⟩ := Option.isSome_iff_exists.1 h2
  have a := (C147_single PE caDer ca).2 hca
  have b := (C147_single PE leafDer leaf).2 hleaf
  exact ⟨ca, leaf, C147_append PE _ _ _ _ a b, a, b, by simp [pem2Cert, hca]⟩

end Verif.X509.IssueExample
