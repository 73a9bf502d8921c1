import Verif.Handshake.Props
/-
C138: nobody is accepted outside of the period of the cluster's certificate, whatever they show.
-/
namespace Verif.Handshake

/-- C138: an end with the credentials of a cluster accepts nobody before or after the period of its certificate, also not
with a certificate signed with the key of the cluster that is valid for longer. -/
theorem C138_period (cert : Cert) (key : Key) (ctx : Context) (hctx : connectionArgs cert key = some ctx) (o : Offer)
    (asked : Option Str) (now : Nat) (ha : accepts ctx asked now o = true) :
    cert.notBefore ≤ now ∧ now ≤ cert.notAfter := by
  have hv : ctx.anchor = cert ∧ ctx.verify = true := by
    unfold connectionArgs loadCertChain at hctx
    split at hctx
    · cases hctx; exact ⟨rfl, rfl⟩
    · cases hctx
  have key : ∀ l, chainOk cert now l = true → cert.notBefore ≤ now ∧ now ≤ cert.notAfter := by
    intro l
    induction l with
    | nil =>
      intro h
      simp only [chainOk, inPeriod, Bool.and_eq_true, decide_eq_true_eq] at h
      exact h.1
    | cons c l ih =>
      intro h
      simp only [chainOk, Bool.and_eq_true] at h
      exact ih h.2
  unfold accepts at ha
  rw [hv.1, hv.2] at ha
  split at ha
  · cases ha
  · simp only [Bool.not_true, Bool.false_or, Bool.and_eq_true] at ha
    exact key _ ha.1.2

/-- A certificate signed with the key of the cluster that is valid for longer: accepted within the period of the cluster's. -/
example :
    let cl := newKeypair "c".toList 7 100
    let other : Cert := { cl.1 with key := 8, notAfter := cl.1.notAfter + 1000 }
    (connectionArgs cl.1 cl.2).map (fun ctx => (accepts ctx none 200 ⟨[other, cl.1], 8⟩,
      accepts ctx none (cl.1.notAfter + 5) ⟨[other, cl.1], 8⟩)) = some (true, false) := by decide +kernel

end Verif.Handshake
