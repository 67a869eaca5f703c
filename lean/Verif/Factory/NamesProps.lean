import Verif.Factory.NamesModel

/-!
# C101 Names and values of the enumerations
-/

namespace Cex.Factory.Names

/-- The name of an enumerator is its identifier, and the identifier is converted back to it. -/
def Good (c : Conv) (e : String × Nat) : Prop := c.toName e.2 = e.1 ∧ c.fromName e.1 = e.2

instance (c : Conv) (e : String × Nat) : Decidable (Good c e) := by unfold Good; infer_instance

/-- **C101.** The enumerations without exception. -/
theorem C101_names : ∀ c ∈ [asymmetricPrimitives, cipherModes, digests, drbgs, macs, paddingModes, prngs, providers, securityPolicy], ∀ e ∈ c.decl, Good c e := by
  intro c hc
  simp only [List.mem_cons, List.not_mem_nil, or_false] at hc
  rcases hc with rfl | rfl | rfl | rfl | rfl | rfl | rfl | rfl | rfl <;> decide +kernel

/-- **C101.** The other three: exactly these enumerators are converted wrongly. -/
theorem C101_names_partial : (∀ e ∈ symmetricCiphers.decl, Good symmetricCiphers e ↔ e.1 ∉ ["AES", "TSXR96K512"]) ∧
    (∀ e ∈ kdfs.decl, Good kdfs e ↔ e.1 ∉ ["HKDS128", "HKDS256", "HKDS512", "SHAKE128", "SHAKE256", "SHAKE512"]) ∧
    (∀ e ∈ asymmetricParameters.decl, Good asymmetricParameters e ↔ e.1 ∉ ["KYBERS1P1632", "SPXPS6S512SHAKE", "XMSSSHA2256H10"]) := by
  refine ⟨?_, ?_, ?_⟩ <;> decide +kernel

/-- **C101**, refuted: the name of AES is converted to `None`; the XMSS parameters of height 10 with SHA2-256 are converted to those of height 16; a Kyber and a SPHINCS+ parameter set and the SHAKE functions have
no name. -/
theorem C101_names_false : symmetricCiphers.fromName (symmetricCiphers.toName 1) = 0 ∧ symmetricCiphers.toName 131 = "None" ∧
    asymmetricParameters.toName (asymmetricParameters.fromName "XMSSSHA2256H10") = "XMSSSHA2256H16" ∧ asymmetricParameters.toName 9 = "None" ∧ asymmetricParameters.toName 20 = "None" ∧
    asymmetricParameters.fromName "KYBERS1P1632" = 0 ∧ kdfs.toName 9 = "None" ∧ kdfs.fromName "SHAKE256" = 0 := by decide +kernel

/-- **C101.** A name that stands in no comparison is converted to `None`, and a value without a case has the name "None". -/
theorem C101_unknown (c : Conv) (s : String) (n : Nat) : ((∀ e ∈ c.from', e.1 ≠ s) → c.fromName s = 0) ∧ ((∀ e ∈ c.to, e.1 ≠ n) → c.toName n = "None") := by
  refine ⟨fun h => ?_, fun h => ?_⟩
  · rw [Conv.fromName, List.find?_eq_none.mpr (fun e he => by simpa using h e he)]
  · rw [Conv.toName, List.find?_eq_none.mpr (fun e he => by simpa using h e he)]

/-- **C101.** In the enumerations without exception, two enumerators never share a name. -/
theorem C101_distinct (c : Conv) (hc : c ∈ [asymmetricPrimitives, cipherModes, digests, drbgs, macs, paddingModes, prngs, providers, securityPolicy]) (e f : String × Nat) (he : e ∈ c.decl) (hf : f ∈ c.decl)
    (h : c.toName e.2 = c.toName f.2) : e = f := by
  have h1 := C101_names c hc e he
  have h2 := C101_names c hc f hf
  have h3 : e.1 = f.1 := by rw [← h1.1, ← h2.1, h]
  exact Prod.ext h3 (by rw [← h1.2, ← h2.2, h3])

example : macs.toName 19 = "Poly1305" ∧ macs.fromName "Poly1305" = 19 := by decide +kernel
example : digests.fromName "MD5" = 0 := (C101_unknown digests "MD5" 0).1 (by decide +kernel)

end Cex.Factory.Names
