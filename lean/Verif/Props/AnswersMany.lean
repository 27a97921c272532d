import Verif.Props.AnswerHides
import Mathlib.Data.List.GetD
/-
C121, many sessions: answers given with fresh nonces tell nothing together that the public share does not tell, on however many paths.
-/
namespace Tss
open Tss

/-! ### Specification -/

/-- What a party with share `x` shows in sessions with the nonces `ts` (latest first): in each session its nonce point and its answer
k + c·(x + d) modulo the order `q`. The challenge `c` and the increment `d` of the path are chosen by somebody who has seen all sessions
before. -/
def spec.sessions {G : Type} [AddCommGroup G] (q : Nat) (B : G) (x : Int) (choose : List (G × Nat) → Int × Int) : List Nat → List (G × Nat)
  | [] => []
  | k :: ts =>
    let seen := spec.sessions q B x choose ts
    (k • B, ((k + (choose seen).1 * (x + (choose seen).2)) % q).toNat) :: seen

/-- The same made up from the public share `X` and chosen answers. -/
def spec.madeUp {G : Type} [AddCommGroup G] (B X : G) (choose : List (G × Nat) → Int × Int) : List Nat → List (G × Nat)
  | [] => []
  | s :: zs =>
    let seen := spec.madeUp B X choose zs
    (s • B - (choose seen).1 • (X + (choose seen).2 • B), s) :: seen

/-- `m` numbers below `q`. -/
def spec.Draws (q m : Nat) (l : List Nat) : Prop := l.length = m ∧ ∀ k ∈ l, k < q

/-! ### Proofs -/

/-- The answers of the sessions. -/
def answersOf {G : Type} [AddCommGroup G] (q : Nat) (B : G) (x : Int) (choose : List (G × Nat) → Int × Int) : List Nat → List Nat
  | [] => []
  | k :: ts =>
    ((k + (choose (spec.sessions q B x choose ts)).1 * (x + (choose (spec.sessions q B x choose ts)).2)) % q).toNat :: answersOf q B x choose ts

/-- The nonces behind made-up answers. -/
def noncesOf {G : Type} [AddCommGroup G] (q : Nat) (B : G) (x : Int) (choose : List (G × Nat) → Int × Int) : List Nat → List Nat
  | [] => []
  | s :: zs =>
    (((s : Int) - (choose (spec.madeUp B (x • B) choose zs)).1 * (x + (choose (spec.madeUp B (x • B) choose zs)).2)) % q).toNat ::
      noncesOf q B x choose zs

section
variable {G : Type} [AddCommGroup G] {q : Nat} (hq : 0 < q) {B : G} (hB : (q : Int) • B = 0) (x : Int) (choose : List (G × Nat) → Int × Int)
include hq

theorem emod_lt' (z : Int) : (z % q).toNat < q := by
  have hq0 : (0 : Int) < q := by exact_mod_cast hq
  have := Int.emod_lt_of_pos z hq0
  have := Int.emod_nonneg z hq0.ne'
  omega

theorem back' (k : Nat) (y : Int) (hk : k < q) : (((((k : Int) + y) % q).toNat : Nat) - y : Int) % q = k := by
  have hq0 : (0 : Int) < q := by exact_mod_cast hq
  rw [Int.toNat_of_nonneg (Int.emod_nonneg _ hq0.ne'), Int.emod_sub_emod, add_sub_cancel_right, Int.emod_eq_of_lt (by omega) (by omega)]

theorem back'' (k : Nat) (y : Int) (hk : k < q) : (((((k : Int) - y) % q).toNat : Nat) + y : Int) % q = k := by
  have := back' hq k (-y) hk
  rwa [sub_neg_eq_add, ← sub_eq_add_neg] at this

include hB in
theorem redn' (z : Int) : (z % q).toNat • B = z • B := by
  have hq0 : (0 : Int) < q := by exact_mod_cast hq
  rw [← natCast_zsmul, Int.toNat_of_nonneg (Int.emod_nonneg _ hq0.ne')]
  conv_rhs => rw [← Int.emod_add_mul_ediv z q]
  rw [add_smul, mul_comm, mul_smul, hB, smul_zero, add_zero]

theorem answersOf_draws : ∀ (m : Nat) (l : List Nat), spec.Draws q m l → spec.Draws q m (answersOf q B x choose l)
  | m, [], h => h
  | m, k :: ts, h => by
    obtain ⟨h1, h2⟩ := h
    have ih := answersOf_draws ts.length ts ⟨rfl, fun k hk => h2 k (by simp [hk])⟩
    refine ⟨by rw [answersOf, List.length_cons, ih.1, ← h1, List.length_cons], ?_⟩
    intro s hs
    rw [answersOf, List.mem_cons] at hs
    rcases hs with rfl | hs
    · exact emod_lt' hq _
    · exact ih.2 s hs

theorem noncesOf_draws : ∀ (m : Nat) (l : List Nat), spec.Draws q m l → spec.Draws q m (noncesOf q B x choose l)
  | m, [], h => h
  | m, k :: ts, h => by
    obtain ⟨h1, h2⟩ := h
    have ih := noncesOf_draws ts.length ts ⟨rfl, fun k hk => h2 k (by simp [hk])⟩
    refine ⟨by rw [noncesOf, List.length_cons, ih.1, ← h1, List.length_cons], ?_⟩
    intro s hs
    rw [noncesOf, List.mem_cons] at hs
    rcases hs with rfl | hs
    · exact emod_lt' hq _
    · exact ih.2 s hs

include hB in
theorem madeUp_answersOf : ∀ l : List Nat, spec.madeUp B (x • B) choose (answersOf q B x choose l) = spec.sessions q B x choose l
  | [] => rfl
  | k :: ts => by
    rw [answersOf, spec.madeUp, spec.sessions, madeUp_answersOf ts]
    generalize choose (spec.sessions q B x choose ts) = w
    rw [redn' hq hB, ← add_smul, ← mul_smul, ← sub_smul, add_sub_cancel_right, natCast_zsmul]

theorem noncesOf_answersOf (hB : (q : Int) • B = 0) : ∀ l : List Nat, (∀ k ∈ l, k < q) → noncesOf q B x choose (answersOf q B x choose l) = l
  | [], _ => rfl
  | k :: ts, h => by
    rw [answersOf, noncesOf, madeUp_answersOf hq hB x choose ts, noncesOf_answersOf hB ts (fun k hk => h k (by simp [hk]))]
    rw [back' hq k _ (h k (by simp)), Int.toNat_natCast]

theorem answersOf_noncesOf (hB : (q : Int) • B = 0) : ∀ l : List Nat, (∀ k ∈ l, k < q) → answersOf q B x choose (noncesOf q B x choose l) = l
  | [], _ => rfl
  | s :: zs, h => by
    have ih := answersOf_noncesOf hB zs (fun k hk => h k (by simp [hk]))
    have hv : spec.sessions q B x choose (noncesOf q B x choose zs) = spec.madeUp B (x • B) choose zs := by
      rw [← madeUp_answersOf hq hB x choose, ih]
    rw [noncesOf, answersOf, ih, hv, back'' hq s _ (h s (by simp)), Int.toNat_natCast]

end

/-- C121. Any number of sessions of one share, each with a nonce of its own, on any paths, the challenges and paths chosen by somebody who
has seen all pairs before: for every set of views, exactly as many choices of nonces lead to a view in the set as there are choices of answers
from which the view, made up from the public share alone, is in the set. -/
theorem C121_many_sessions {G : Type} [AddCommGroup G] (q : Nat) (hq : 0 < q) (B : G) (hB : (q : Int) • B = 0) (x : Int)
    (choose : List (G × Nat) → Int × Int) (m : Nat) (T : List (G × Nat) → Prop) :
    Nat.card {ts : List Nat // spec.Draws q m ts ∧ T (spec.sessions q B x choose ts)} =
      Nat.card {zs : List Nat // spec.Draws q m zs ∧ T (spec.madeUp B (x • B) choose zs)} := by
  refine Nat.card_congr ⟨fun l => ⟨answersOf q B x choose l.1, answersOf_draws hq x choose m _ l.2.1, ?_⟩,
    fun l => ⟨noncesOf q B x choose l.1, noncesOf_draws hq x choose m _ l.2.1, ?_⟩, ?_, ?_⟩
  · rw [madeUp_answersOf hq hB]; exact l.2.2
  · have h := answersOf_noncesOf (B := B) hq x choose hB l.1 l.2.1.2
    have hv : spec.sessions q B x choose (noncesOf q B x choose l.1) = spec.madeUp B (x • B) choose l.1 := by
      rw [← madeUp_answersOf hq hB x choose, h]
    rw [hv]; exact l.2.2
  · intro l; exact Subtype.ext (noncesOf_answersOf hq x choose hB l.1 l.2.1.2)
  · intro l; exact Subtype.ext (answersOf_noncesOf hq x choose hB l.1 l.2.1.2)

/-- C121. For signing: the shares of one party on all paths (`C120`: the share on a path is the stored one plus an increment that everybody
knows) in any number of sessions. With the answers of `C121_signing` this is what all the signers of one party send in their rounds 2 and 3;
two parties whose stored shares are congruent modulo the order, in particular, show the same. -/
theorem C121_many_signers (x : Int) (choose : List (Ed.Point × Nat) → Int × Int) (m : Nat) (T : List (Ed.Point × Nat) → Prop) :
    Nat.card {ts : List Nat // spec.Draws Ed.ord m ts ∧ T (spec.sessions Ed.ord Ed.B x choose ts)} =
      Nat.card {zs : List Nat // spec.Draws Ed.ord m zs ∧ T (spec.madeUp Ed.B (x • Ed.B) choose zs)} :=
  C121_many_sessions Ed.ord Ed.ord_prime.pos Ed.B (by rw [natCast_zsmul]; exact Ed.ord_smul_B) x choose m T

/-! ### The sessions of the code -/

/-- The choices of sessions that are already over: challenge and increment of the path, latest first. -/
def spec.fixed {G : Type} (a : List (Int × Int)) (seen : List (G × Nat)) : Int × Int := a.reverse.getD seen.length (0, 0)

theorem sessions_length {G : Type} [AddCommGroup G] (q : Nat) (B : G) (x : Int) (choose : List (G × Nat) → Int × Int) :
    ∀ l, (spec.sessions q B x choose l).length = l.length
  | [] => rfl
  | k :: ts => by simp only [spec.sessions, List.length_cons, sessions_length q B x choose ts]

theorem sessions_congr {G : Type} [AddCommGroup G] (q : Nat) (B : G) (x : Int) (f g : List (G × Nat) → Int × Int) :
    ∀ l : List Nat, (∀ seen : List (G × Nat), seen.length < l.length → f seen = g seen) → spec.sessions q B x f l = spec.sessions q B x g l
  | [], _ => rfl
  | k :: ts, h => by
    have ih := sessions_congr q B x f g ts (fun seen hs => h seen (by simp; omega))
    simp only [spec.sessions]
    rw [ih, h _ (by rw [sessions_length]; simp)]

theorem sessions_fixed {G : Type} [AddCommGroup G] (q : Nat) (B : G) (x : Int) : ∀ (ks : List Nat) (a : List (Int × Int)), ks.length = a.length →
    spec.sessions q B x (spec.fixed a) ks = List.zipWith (fun (k : Nat) w => (k • B, ((k + w.1 * (x + w.2)) % (q : Int)).toNat)) ks a
  | [], _, _ => by simp [spec.sessions]
  | k :: ts, [], h => by simp at h
  | k :: ts, w :: a, h => by
    have hl : ts.length = a.length := by simpa using h
    have e : spec.sessions q B x (spec.fixed (w :: a)) ts = spec.sessions q B x (spec.fixed a) ts := by
      apply sessions_congr
      intro seen hs
      unfold spec.fixed
      rw [List.reverse_cons, List.getD_append _ _ _ _ (by rw [List.length_reverse]; omega)]
    have e2 : spec.fixed (w :: a) (spec.sessions q B x (spec.fixed a) ts) = w := by
      unfold spec.fixed
      rw [List.reverse_cons, sessions_length, List.getD_append_right _ _ _ _ (by rw [List.length_reverse]; omega), List.length_reverse, hl,
        Nat.sub_self]
      rfl
    simp only [spec.sessions, e, e2]
    rw [sessions_fixed q B x ts a hl, List.zipWith_cons_cons]

end Tss

namespace Tss.Onsign
open Tss Text Wire

/-- A session of a signer whose stored share is `x`: it is created with the share on some path, `x + d` modulo the group order, runs rounds 1 and 2
and then, with any messages at hand and after any calls that leave it alone, round 3 with success. -/
structure spec.Session (x : Int) where
  e : Env
  zs : Nat → Int
  before : Reg
  after : Reg
  key : Bytes
  w1 : Bytes
  w : Bytes
  M1 : List Bytes
  rnd : Rand1
  p : Party
  share : Int
  d : Int
  ran2 : spec.Signed2 e key rnd w1 M1 before
  there : before key = some p
  has : p.keys.privXi = some share
  path : share % Ed.ord = (x + d) % Ed.ord
  range : 0 ≤ share ∧ share < 2 ^ 256
  nonce : 0 ≤ rnd.k ∧ rnd.k < 2 ^ 256
  ran3 : OnsignRound3Exec e zs before key = (.ok w, after)

/-- What a session sends: the nonce point in its round-2 messages, the answer in its round-3 message, to the challenge `c`. -/
def spec.Session.Sends {x : Int} (s : spec.Session x) (c : Int) (pair : Ed.Point × Nat) : Prop :=
  (∃ (R : Bytes) (A : ECPoint) (p' : Party), s.p.keys.eddsaPub = some A ∧ s.after s.key = some p' ∧ p'.r = some (leNat R : Int) ∧ R.length = 32 ∧
    c = spec.challenge s.e.sha512 R (Ed.ecPointToEncodedBytes A.x A.y) (intBytes s.p.m)) ∧
  (∀ j, j < s.p.ids.length → ∃ prf, (GetRound2Msg s.before s.key j).1 = .ok (wireBytes (.sg2 (intBytes (Ed.coords pair.1).1)
    (intBytes (Ed.coords pair.1).2) prf))) ∧
  s.w = wireBytes (.sg3 (intBytes pair.2))

theorem session_sends {x : Int} (s : spec.Session x) : ∃ c : Int, s.Sends c (s.rnd.k.toNat • Ed.B, ((s.rnd.k.toNat + c * (x + s.d)) % (Ed.ord : Int)).toNat) := by
  obtain ⟨R, A, p', c, a1, a2, a3, a4, a5, a6, a7, -⟩ := C121_signing s.ran2 s.there s.has s.range s.nonce.2 s.ran3
  have hk : ((s.rnd.k.toNat : Nat) : Int) = s.rnd.k := Int.toNat_of_nonneg s.nonce.1
  have hB : s.rnd.k.toNat • Ed.B = s.rnd.k • Ed.B := by rw [← natCast_zsmul, hk]
  refine ⟨c, ⟨R, A, p', a1, a2, a3, a4, by rw [a5]⟩, by rw [hB]; exact a6, ?_⟩
  rw [a7]
  have hq0 : (0 : Int) < Ed.ord := by exact_mod_cast Ed.ord_prime.pos
  dsimp only
  rw [hk, Int.toNat_of_nonneg (Int.emod_nonneg _ hq0.ne')]
  have e : ((s.rnd.k : Int) + c * s.share) % (Ed.ord : Int) = (s.rnd.k + c * (x + s.d)) % (Ed.ord : Int) := by
    have := s.path
    exact Int.ModEq.add_left _ (Int.ModEq.mul_left _ this)
  rw [e]

/-- C121. The sessions of the code are sessions of the specification: for any list of sessions of one stored share there are challenges, each the
hash of the nonce sum, key and message of its session, with which what the sessions send is `spec.sessions` of their nonces. So
`C121_many_signers` speaks about all that the signers of a party send in rounds 2 and 3, range proofs apart. -/
theorem C121_sessions {x : Int} (l : List (spec.Session x)) : ∃ a : List (Int × Int), a.map Prod.snd = l.map (·.d) ∧
    (spec.sessions Ed.ord Ed.B x (spec.fixed a) (l.map (·.rnd.k.toNat))).length = l.length ∧
    ∀ (i : Nat) (s : spec.Session x) (w : Int × Int) (pair : Ed.Point × Nat), l[i]? = some s → a[i]? = some w →
      (spec.sessions Ed.ord Ed.B x (spec.fixed a) (l.map (·.rnd.k.toNat)))[i]? = some pair → s.Sends w.1 pair := by
  have hc : ∃ a : List (Int × Int), a.map Prod.snd = l.map (·.d) ∧ ∀ (i : Nat) (s : spec.Session x) (w : Int × Int), l[i]? = some s → a[i]? = some w →
      s.Sends w.1 (s.rnd.k.toNat • Ed.B, ((s.rnd.k.toNat + w.1 * (x + w.2)) % (Ed.ord : Int)).toNat) := by
    induction l with
    | nil => exact ⟨[], rfl, fun i s w h => by simp at h⟩
    | cons s l ih =>
      obtain ⟨a, h1, h2⟩ := ih
      obtain ⟨c, hc⟩ := session_sends s
      refine ⟨(c, s.d) :: a, by rw [List.map_cons, List.map_cons, h1], ?_⟩
      intro i s' w hs hw
      cases i with
      | zero =>
        rw [List.getElem?_cons_zero] at hs hw
        injection hs with hs
        injection hw with hw
        subst hs hw
        exact hc
      | succ i =>
        rw [List.getElem?_cons_succ] at hs hw
        exact h2 i s' w hs hw
  obtain ⟨a, h1, h2⟩ := hc
  have hl : (l.map (·.rnd.k.toNat)).length = a.length := by
    rw [List.length_map, ← List.length_map (f := Prod.snd) (as := a), h1, List.length_map]
  refine ⟨a, h1, by rw [sessions_length, List.length_map], ?_⟩
  intro i s w pair hs hw hp
  have hz := sessions_fixed Ed.ord Ed.B x (l.map (·.rnd.k.toNat)) a hl
  rw [hz, List.getElem?_zipWith, List.getElem?_map, hs, hw] at hp
  simp only [Option.map_some, Option.some.injEq] at hp
  rw [← hp]
  exact h2 i s w hs hw

end Tss.Onsign
