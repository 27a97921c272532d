import Verif.Model.AlicePaillier
import Verif.Model.RingPed
import Verif.Lemmas.AliceUtils
import Verif.Lemmas.RangeProofs
import Verif.Lemmas.ModExp
import Verif.Lemmas.Paillier
/-! Sequencing lemmas for the models of crypto/alice. -/
namespace Tss

theorem Res.bind_eq_ok {ε α β : Type} {r : Res ε α} {f : α → Res ε β} {b : β} :
    r.bind f = .ok b ↔ ∃ a, r = .ok a ∧ f a = .ok b := by
  cases r <;> simp [Res.bind]

theorem Res.bind_eq_panic {ε α β : Type} {r : Res ε α} {f : α → Res ε β} :
    r.bind f = .panic ↔ r = .panic ∨ ∃ a, r = .ok a ∧ f a = .panic := by
  cases r <;> simp [Res.bind]

theorem Res.bind_eq_err {ε α β : Type} {r : Res ε α} {f : α → Res ε β} {e : ε} :
    r.bind f = .err e ↔ r = .err e ∨ ∃ a, r = .ok a ∧ f a = .err e := by
  cases r <;> simp [Res.bind]

theorem Res.bind_ok {ε α β : Type} (a : α) (f : α → Res ε β) : (Res.ok a : Res ε α).bind f = f a := rfl

namespace AlicePaillier

theorem deref_ok {ε : Type} {o : Option Int} {z : Int} : (deref o : Res ε Int) = .ok z ↔ o = some z := by
  cases o <;> simp [deref]

theorem deref_panic {ε : Type} {o : Option Int} : (deref o : Res ε Int) = .panic ↔ o = none := by
  cases o <;> simp [deref]

theorem deref_not_err {ε : Type} {o : Option Int} {e : ε} : (deref o : Res ε Int) ≠ .err e := by
  cases o <;> simp [deref]

theorem RandomCoprimeInt_range {n v : Int} {tape rest : Bytes} (h : Alice.RandomCoprimeInt n tape = .ok (v, rest)) :
    2 < n ∧ 2 ≤ v ∧ v < n ∧ Int.gcd v n = 1 := by
  unfold Alice.RandomCoprimeInt at h
  split at h
  · simp at h
  · next hn => exact ⟨by omega, Alice.randomCoprimeLoop_range _ _ _ _ h⟩

end AlicePaillier

namespace RingPed
open Alice

theorem lift_ok {α : Type} {r : Res AErr α} {a : α} : lift r = .ok a ↔ r = .ok a := by cases r <;> simp [lift]

theorem lift_inRange_ok {v f c : Int} : lift (InRange v f c) = .ok () ↔ f ≤ v ∧ v < c := by rw [lift_ok, InRange_ok]

theorem bigExp_mod {x y n : Int} (hn : 0 < n) (hy : 0 ≤ y) : bigExp x y n = some (x ^ y.toNat % n) := by
  unfold bigExp; rw [if_neg (by omega), if_neg (by omega)]

theorem chal_cases (Hb : Bytes → Bytes) (salt ssid : Bytes) (n s t : Int) (a : Bytes) :
    chal Hb salt ssid n s t a = 0 ∨ chal Hb salt ssid n s t a = 1 := by
  unfold chal; omega

end RingPed
end Tss
