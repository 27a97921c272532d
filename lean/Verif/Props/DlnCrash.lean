import Verif.Props.DlnSound
/-
C42: when the verifier of a discrete-logarithm proof and the parser crash.
-/
namespace Tss.Dln
open Tss Common Commit

theorem allAboveOne_not_panic (N : Int) (l : List (Option Int)) :
    allAboveOne N l = .panic ↔ ∃ (v : List Int) (r : List (Option Int)), l = v.map some ++ none :: r ∧ ∀ t ∈ v, spec.NonTrivial N t := by
  induction l with
  | nil => simp [allAboveOne]
  | cons o r ih =>
    cases o with
    | none => exact iff_of_true rfl ⟨[], r, rfl, by simp⟩
    | some t =>
      simp only [allAboveOne]
      by_cases ht : 1 < t % N
      · rw [if_pos ht, ih]
        constructor
        · rintro ⟨v, r', rfl, hv⟩
          exact ⟨t :: v, r', rfl, List.forall_mem_cons.2 ⟨ht, hv⟩⟩
        · rintro ⟨v, r', e, hv⟩
          cases v with
          | nil => simp at e
          | cons x v =>
            simp only [List.map_cons, List.cons_append, List.cons.injEq, Option.some.injEq] at e
            exact ⟨v, r', e.2, (List.forall_mem_cons.1 hv).2⟩
      · rw [if_neg ht]
        refine iff_of_false (by simp) ?_
        rintro ⟨v, r', e, hv⟩
        cases v with
        | nil => simp at e
        | cons x v =>
          simp only [List.map_cons, List.cons_append, List.cons.injEq, Option.some.injEq] at e
          exact ht (by rw [e.1]; exact (List.forall_mem_cons.1 hv).1)

theorem allAboveOne_no_err (N : Int) (l : List (Option Int)) (e : Unit) : allAboveOne N l ≠ .err e := by
  induction l with
  | nil => simp [allAboveOne]
  | cons o r ih =>
    cases o with
    | none => simp [allAboveOne]
    | some t => simp only [allAboveOne]; split <;> simp [ih]

theorem equations_no_panic {h1 h2 N : Int} (hN : 0 < N) (c : Nat) (as : List Int) : ∀ (ts : List Int) (i : Nat), (∀ t ∈ ts, 0 ≤ t) →
    equations h1 h2 N c i (as.map some) (ts.map some) ≠ .panic := by
  induction as with
  | nil => intro ts i _; cases ts <;> simp [equations]
  | cons a as ih =>
    intro ts i hp
    cases ts with
    | nil => simp [equations]
    | cons t ts =>
      simp only [List.map_cons, equations]
      rw [bigExp_nonneg hN (hp t (by simp)), bigExp_bit hN c i]
      simp only
      by_cases hq : h1 ^ t.toNat % N = a * ((if c.testBit i then h2 else 1) % N) % N
      · rw [if_pos hq]
        exact ih ts (i + 1) fun x hx => hp x (by simp [hx])
      · rw [if_neg hq]; simp

/-- C42. The verifier never crashes on a proof without nil entries and without negative responses, whatever the bases, the modulus and the
number of entries are. -/
theorem C42_verify_no_crash (H : Bytes → Bytes) (h1 h2 N : Int) (al ts : List Int) (hp : ∀ t ∈ ts, 0 ≤ t) :
    Verify H (some ⟨al.map some, ts.map some⟩) h1 h2 N ≠ .panic := by
  unfold Verify
  simp only
  by_cases hN : N ≤ 0
  · rw [if_pos hN]; simp
  rw [if_neg hN]
  by_cases b1 : 1 < h1 % N
  swap
  · rw [if_pos b1]; simp
  rw [if_neg (not_not.2 b1)]
  by_cases b2 : 1 < h2 % N
  swap
  · rw [if_pos b2]; simp
  rw [if_neg (not_not.2 b2)]
  by_cases b3 : h1 % N = h2 % N
  · rw [if_pos b3]; simp
  rw [if_neg b3, allAboveOne_some, allAboveOne_some]
  by_cases g1 : ∀ t ∈ ts, spec.NonTrivial N t
  swap
  · rw [decide_eq_false g1]; simp
  rw [decide_eq_true g1]
  simp only
  by_cases g2 : ∀ t ∈ al, spec.NonTrivial N t
  swap
  · rw [decide_eq_false g2]; simp
  rw [decide_eq_true g2]
  simp only
  rw [hash_some]
  simp only
  exact equations_no_panic (by omega) _ al ts 0 hp

/-- C42. Nil entries. With acceptable bases, a nil response crashes the verifier exactly if no response before it is 0 or 1 modulo N, and a nil
commitment exactly if all responses and all commitments before it are neither; the check for nil in the loop is never reached. -/
theorem C42_nil_crash (H : Bytes → Bytes) (al ts : List Int) (A' T' : List (Option Int)) (h1 h2 N : Int) (hN : 0 < N)
    (b1 : 1 < h1 % N) (b2 : 1 < h2 % N) (b3 : h1 % N ≠ h2 % N) :
    (∀ A : List (Option Int), Verify H (some ⟨A, ts.map some ++ none :: T'⟩) h1 h2 N = .panic ↔ ∀ t ∈ ts, spec.NonTrivial N t) ∧
    (Verify H (some ⟨al.map some ++ none :: A', ts.map some⟩) h1 h2 N = .panic ↔
      (∀ t ∈ ts, spec.NonTrivial N t) ∧ ∀ a ∈ al, spec.NonTrivial N a) := by
  have pre : ∀ (v w : List Int) (r s : List (Option Int)), v.map some ++ none :: r = w.map some ++ none :: s → v = w := by
    intro v
    induction v with
    | nil => intro w r s e; cases w <;> simp_all
    | cons x v ih =>
      intro w r s e
      cases w with
      | nil => simp at e
      | cons y w =>
        simp only [List.map_cons, List.cons_append, List.cons.injEq, Option.some.injEq] at e
        rw [e.1, ih w r s e.2]
  have nt : ∀ (v : List Int) (r : List (Option Int)), allAboveOne N (v.map some ++ none :: r) ≠ .ok true := by
    intro v r h
    obtain ⟨w, e, -⟩ := allAboveOne_true h
    have : (none : Option Int) ∈ w.map some := by rw [← e]; simp
    simp at this
  have one : ∀ (v : List Int) (r : List (Option Int)), allAboveOne N (v.map some ++ none :: r) = .panic ↔ ∀ t ∈ v, spec.NonTrivial N t := by
    intro v r
    rw [allAboveOne_not_panic]
    constructor
    · rintro ⟨w, s, e, hw⟩; rw [pre v w r s e]; exact hw
    · intro h; exact ⟨v, r, rfl, h⟩
  constructor
  · intro A
    unfold Verify
    simp only
    rw [if_neg (by omega), if_neg (not_not.2 b1), if_neg (not_not.2 b2), if_neg b3, ← one ts T']
    have := nt ts T'
    generalize allAboveOne N (ts.map some ++ none :: T') = o at *
    match o with
    | .ok true => exact absurd rfl this
    | .ok false => simp
    | .err _ => simp
    | .panic => simp
  · unfold Verify
    simp only
    rw [if_neg (by omega), if_neg (not_not.2 b1), if_neg (not_not.2 b2), if_neg b3, ← one al A', allAboveOne_some]
    by_cases g : ∀ t ∈ ts, spec.NonTrivial N t
    · rw [decide_eq_true g]
      simp only
      have := nt al A'
      generalize allAboveOne N (al.map some ++ none :: A') = o at *
      match o with
      | .ok true => exact absurd rfl this
      | .ok false => simp
      | .err _ => simp
      | .panic => simpa using g
    · rw [decide_eq_false g]; simp [g]

/-- C42. What comes out of the parser never crashes the verifier. -/
theorem C42_unmarshalled_no_crash (H : Bytes → Bytes) (bzs : List Bytes) (pf : Proof) (h : UnmarshalDLNProof bzs = .ok pf) (h1 h2 N : Int) :
    Verify H (some pf) h1 h2 N ≠ .panic := by
  obtain ⟨a, t, hs, -, -, rfl⟩ := (C42_unmarshal_iff bzs pf).1 h
  obtain ⟨-, -, ls, tail, hl, -, e, -⟩ := C46_parse_sound _ _ hs
  have mem : ∀ p ∈ [a, t], ∀ z ∈ p, ∃ v : Int, z = some v ∧ 0 ≤ v := by
    intro p hp z hz
    have hin : z ∈ bzs.map fun b => some (beNat b : Int) := by
      rw [← e]
      apply List.mem_append_left
      match ls, hl with
      | [x, y], _ =>
        simp only [List.mem_cons, List.not_mem_nil, or_false] at hp
        rcases hp with rfl | rfl <;> simp [hz]
    obtain ⟨b, -, rfl⟩ := List.mem_map.1 hin
    exact ⟨_, rfl, Int.natCast_nonneg _⟩
  have conv : ∀ l : List (Option Int), (∀ z ∈ l, ∃ v : Int, z = some v ∧ 0 ≤ v) → ∃ vs : List Int, l = vs.map some ∧ ∀ v ∈ vs, 0 ≤ v := by
    intro l
    induction l with
    | nil => intro _; exact ⟨[], rfl, by simp⟩
    | cons z l ih =>
      intro hz
      obtain ⟨v, rfl, hv⟩ := hz _ List.mem_cons_self
      obtain ⟨vs, rfl, hvs⟩ := ih fun z hz' => hz z (List.mem_cons_of_mem _ hz')
      exact ⟨v :: vs, rfl, List.forall_mem_cons.2 ⟨hv, hvs⟩⟩
  obtain ⟨as, ea, -⟩ := conv (a.take 128) fun z hz => mem a (by simp) z (List.mem_of_mem_take hz)
  obtain ⟨ts, et, htp⟩ := conv (t.take 128) fun z hz => mem t (by simp) z (List.mem_of_mem_take hz)
  rw [ea, et]
  exact C42_verify_no_crash H h1 h2 N as ts htp

/-- C42. The parser itself crashes on a first entry whose 64-bit value has its top bit set, which is taken for a negative length. -/
theorem C42_unmarshal_crashes (b b' : Bytes) (r : List Bytes) (hb : 2 ^ 63 ≤ beNat b % 2 ^ 64) : UnmarshalDLNProof (b :: b' :: r) = .panic := by
  unfold UnmarshalDLNProof
  simp only [List.map_cons]
  rw [C46_negative_length_crashes]
  unfold int64
  omega

/-- Non-vacuity: eight bytes 80 00 .. 00 crash the parser; a nil commitment behind a good one crashes the verifier for N = 35. -/
theorem C42_crash_case : UnmarshalDLNProof [[0x80, 0, 0, 0, 0, 0, 0, 0], []] = .panic ∧
    (∀ H : Bytes → Bytes, Verify H (some ⟨[some 4, none], [some 2]⟩) 4 11 35 = .panic) ∧
    (∀ H : Bytes → Bytes, Verify H (some ⟨[some 1, none], [some 2]⟩) 4 11 35 = .ok false) := by
  refine ⟨C42_unmarshal_crashes _ _ _ (by decide), fun H => ?_, fun H => rfl⟩
  exact ((C42_nil_crash H [4] [2] [] [] 4 11 35 (by norm_num) (by norm_num) (by norm_num) (by norm_num)).2).2 (by decide)

end Tss.Dln
