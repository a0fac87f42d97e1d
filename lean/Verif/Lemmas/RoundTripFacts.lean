import Verif.Lemmas.RoundTripExcl
import Verif.Lemmas.RoundTripHTTP
import Verif.Lemmas.RoundTripSecurity
import Verif.Lemmas.RoundTripParameter

/-!
# The facts about the two tables

`writable_good` follows from facts about a table; here they are collected for 3.0 and 3.1.
-/

namespace Verif
open Codec Spec

variable {N : Nums}

theorem facts30 (N : Nums) : Facts V30.table N ok30 where
  ranked := ranked30
  plain := plain_of_checks plains30
  union := union_of_check ranked30 unions30 (fun n s go t v e hm hn ho he hv hg _ j hj =>
    manual30_sound n s go t v e hm hn ho he hv hg j hj)
  http := fun hn val hf hp hpk hs => http30 ranked30 (by decide +kernel) (by decide +kernel) hn val hf hp hpk hs
  security := fun h => absurd h (by decide +kernel)
  parameter := fun hn val hf hp hpk a hx i hin hreq hst hl => parameter30 hn val hf hp hpk a hx i hin hreq hst hl

theorem facts31 (N : Nums) : Facts V31.table N ok31 where
  ranked := ranked31
  plain := plain_of_checks plains31
  union := union_of_check ranked31 unions31 (fun n s go t v e hm hn ho he hv hg hok j hj =>
    manual31_sound n s go t v e hm hn ho he hv hg hok j hj)
  http := fun h => absurd h (by decide +kernel)
  security := fun hn val hf hp hpk go t ho hv hg hothers => security31 hn val hf hp hpk go t ho hv hg hothers
  parameter := fun h => absurd h (by decide +kernel)

theorem again30 (N : Nums) : AgainFacts V30.table N where
  http := fun hn val hf hp ha hpk hs hfill => (http30_both ranked30 (by decide +kernel) (by decide +kernel) hn val
    (fun f hff => (hf f hff).1) hp hpk hs).2.1 (fun f hff => (hf f hff).2) ha hfill
  security := fun h => absurd h (by decide +kernel)
  parameter := fun hn val hf hp ha hpk a hx i hin hreq hst hstyle hl =>
    (parameter30_both hn val (fun f hff hne => (hf f hff hne).1) hp hpk a
      (hx.imp (fun ⟨h1, h2, h3, b, h4, _, h5, h6⟩ => ⟨h1, h2, h3, .inr (h6.imp (fun e => by subst e; exact ⟨h4, h5⟩)
          (fun ⟨h7, w, h8⟩ => ⟨h7, b, w, h4, h5, h8⟩))⟩)
        (fun ⟨h1, h2, h3, b, h4, _, h5, h6⟩ => ⟨h1, h2, h3, .inr (h6.imp (fun e => by subst e; exact ⟨h4, h5⟩)
          (fun ⟨h7, w, h8⟩ => ⟨h7, b, w, h4, h5, h8⟩))⟩))
      i hin hreq hst (.inr hl)).2.1 (fun f hff hne => (hf f hff hne).2) ha
      (hx.imp (fun ⟨_, _, _, b, h4, h5, _⟩ => ⟨b, h4, h5⟩) (fun ⟨_, _, _, b, h4, h5, _⟩ => ⟨b, h4, h5⟩)) hstyle
      (by rcases hl with ⟨_, h⟩ | ⟨_, h⟩ <;> rw [h] <;> intro e <;> cases e)

theorem again31 (N : Nums) : AgainFacts V31.table N where
  http := fun h => absurd h (by decide +kernel)
  security := fun hn val hf hp ha hpk go t ho hv hg hag hothers =>
    (security31_both hn val (fun f hff => (hf f hff).1) hp hpk go t ho hv hg hothers).2 (fun f hff => (hf f hff).2) ha hag
  parameter := fun h => absurd h (by decide +kernel)

/-- What is read back in 3.1 is written as before. -/
theorem writable_again31 {N : Nums} {ty : Ty} {v : Val} (h : Writable V31.table N ok31 ty v) : Again V31.table N ty v :=
  (writable_again (facts31 N) (again31 N) (fun h => absurd h (by decide +kernel)) h
    (.inl ⟨by decide +kernel, by decide +kernel⟩)).1

/-- What is read back in 3.0 is written as before if the fields that repeat others are filled in. -/
theorem writable_again30 {N : Nums} {ty : Ty} {v : Val} (h : Writable V30.table N ok30 ty v) (hf : Everywhere (filled N) v) :
    Again V30.table N ty v :=
  (writable_again (facts30 N) (again30 N) (fun _ => rfl) h (.inr hf)).1

end Verif
