import Verif.Props.SafePrime
/-! C61: how the safe-prime search stops. -/
namespace Tss.SafePrime
open Tss

/-! ### Specification -/

/-- The call is waiting for its workers and, whatever happens next, keeps waiting. -/
def spec.Hung {ε : Type} (c : Cfg) (s : St ε) : Prop := ∃ r, ∀ t, Run c s t → t.main = .waiting r

/-- Workers that may still put a pair into the channel after the cancellation. -/
def spec.pending {ε : Type} (s : St ε) : Nat := s.ws.countP fun w => match w with | .busy _ _ => true | .sending _ => true | _ => false

/-! ### Invariants -/

def isDone {ε : Type} : W ε → Bool
  | .done => true
  | _ => false

structure Inv2 {ε : Type} (c : Cfg) (s : St ε) : Prop where
  /-- the number of workers never changes -/
  size : s.ws.length = c.concurrency
  /-- every error in the channel was put there by a finished worker -/
  errs : s.errCh.length ≤ s.ws.countP isDone
  /-- while collecting, workers finish only by failing or by seeing the context done -/
  alive : ∀ g, s.main = .collecting g → s.genDone = false → s.errCh.length = s.ws.countP isDone
  /-- while collecting, the generators' context is done only if the caller's is -/
  par : ∀ g, s.main = .collecting g → s.genDone = true → s.parentDone = true
  /-- once waiting, the generators' context is done -/
  wait : (∃ r, s.main = .waiting r ∨ s.main = .returned r) → s.genDone = true
  /-- a call that has returned has no worker left -/
  ret : (∃ r, s.main = .returned r) → ∀ w ∈ s.ws, w = .done

theorem isDone_after {ε : Type} (o : Option Pair × Nat × Nat) : isDone (afterIteration o : W ε) = false := by
  obtain ⟨o, p, q⟩ := o
  cases o <;> rfl

theorem inv2_step {ε : Type} {c : Cfg} {s t : St ε} (h : Inv2 c s) (st : Step c s t) : Inv2 c t := by
  obtain ⟨h1, h2, h3, h4, h5, h6⟩ := h
  have ret' : ∀ {l r : List (W ε)} {w : W ε}, s.ws = l ++ w :: r → w ≠ .done → ¬ ∃ x, s.main = .returned x := by
    intro l r w hw hne hx
    exact hne (h6 hx w (by rw [hw]; simp))
  cases st with
  | stop hw hg =>
    have hr := ret' hw (by simp)
    rw [hw] at h1 h2
    simp only [List.length_append, List.length_cons, List.countP_append, List.countP_cons] at h1 h2
    refine ⟨by simpa using h1, ?_, ?_, h4, h5, fun hx => absurd hx hr⟩
    · simp only [List.countP_append, List.countP_cons, isDone] at h2 ⊢; simp at h2 ⊢; omega
    · intro g hm hgd; simp only at hgd; rw [hg] at hgd; simp at hgd
  | begin hw hg =>
    have hr := ret' hw (by simp)
    rw [hw] at h1 h2 h3
    simp only [List.length_append, List.length_cons, List.countP_append, List.countP_cons, isDone] at h1 h2 h3
    refine ⟨by simpa using h1, ?_, ?_, h4, h5, fun hx => absurd hx hr⟩
    · simpa [isDone] using h2
    · intro g hm hgd; simpa [isDone] using h3 g hm hgd
  | readErr e hw =>
    have hr := ret' hw (by simp)
    rw [hw] at h1 h2 h3
    simp only [List.length_append, List.length_cons, List.countP_append, List.countP_cons, isDone] at h1 h2 h3
    refine ⟨by simpa using h1, ?_, ?_, h4, h5, fun hx => absurd hx hr⟩
    · simpa [isDone] using h2
    · intro g hm hgd; simpa [isDone] using h3 g hm hgd
  | compute bytes hw hl =>
    have hr := ret' hw (by simp)
    rw [hw] at h1 h2 h3
    simp only [List.length_append, List.length_cons, List.countP_append, List.countP_cons, isDone] at h1 h2 h3
    refine ⟨by simpa using h1, ?_, ?_, h4, h5, fun hx => absurd hx hr⟩
    · simpa [isDone_after] using h2
    · intro g hm hgd; simpa [isDone_after] using h3 g hm hgd
  | send hw hl =>
    have hr := ret' hw (by simp)
    rw [hw] at h1 h2 h3
    simp only [List.length_append, List.length_cons, List.countP_append, List.countP_cons, isDone] at h1 h2 h3
    refine ⟨by simpa using h1, ?_, ?_, h4, h5, fun hx => absurd hx hr⟩
    · simpa [isDone] using h2
    · intro g hm hgd; simpa [isDone] using h3 g hm hgd
  | fail hw hl =>
    have hr := ret' hw (by simp)
    rw [hw] at h1 h2 h3
    simp only [List.length_append, List.length_cons, List.countP_append, List.countP_cons, isDone] at h1 h2 h3
    refine ⟨by simpa using h1, ?_, ?_, h4, h5, fun hx => absurd hx hr⟩
    · simp only [List.countP_append, List.countP_cons, List.length_append, List.length_singleton, isDone] at h2 ⊢
      simp at h2 ⊢; omega
    · intro g hm hgd; have := h3 g hm hgd
      simp only [List.countP_append, List.countP_cons, List.length_append, List.length_singleton, isDone] at this ⊢
      simp at this ⊢; omega
  | recvPrime hm hc =>
    have hnr : ∀ got pr x, onPrime (ε := ε) c.numPrimes got pr ≠ .waiting x ∧ onPrime (ε := ε) c.numPrimes got pr ≠ .returned x := by
      intro got pr x; unfold onPrime; split <;> simp
    refine ⟨h1, h2, fun g hg hgd => h3 _ hm hgd, fun g hg hgd => h4 _ hm hgd, ?_, ?_⟩
    · rintro ⟨r, hr | hr⟩
      · exact absurd hr (hnr _ _ r).1
      · exact absurd hr (hnr _ _ r).2
    · rintro ⟨r, hr⟩; exact absurd hr (hnr _ _ r).2
  | recvErr hm hc =>
    rw [hc] at h2
    simp only [List.length_cons] at h2
    exact ⟨h1, by simp only; omega, by simp, by simp, by simp, by simp⟩
  | recvDone hm hp => exact ⟨h1, h2, by simp, by simp, by simp, by simp⟩
  | cancel hm => exact ⟨h1, h2, by simp, by simp, by simp, by simp⟩
  | finish hm hd => exact ⟨h1, h2, by simp, by simp, fun _ => h5 ⟨_, .inl hm⟩, fun _ => hd⟩
  | propagate hp hg => exact ⟨h1, h2, by simp, fun _ _ _ => hp, fun _ => rfl, h6⟩

theorem inv2_run {ε : Type} {c : Cfg} {s : St ε} (h : Run c (init c) s) : Inv2 c s := by
  generalize hi : init c = i at h
  induction h with
  | refl =>
    subst hi
    have h0 : (init (ε := ε) c).ws.countP isDone = 0 := by
      simp [init, List.countP_replicate, isDone]
    refine ⟨by simp [init], by simp [init], ?_, ?_, ?_, ?_⟩
    · intro g _ _; rw [h0]; rfl
    · simp [init]
    · simp [init]
    · simp [init]
  | tail _ st ih =>
    subst hi
    cases st with
    | step st => exact inv2_step ih st
    | cancelParent hp => exact ⟨ih.size, ih.errs, ih.alive, fun _ _ _ => rfl, ih.wait, ih.ret⟩

/-! ### The statements -/

/-- C61. Whenever the call has returned, every worker has finished; so nothing is sent on the channels it closed. -/
theorem C61_returned_means_stopped {ε : Type} (c : Cfg) (s : St ε) (h : Run c (init c) s) (r : Result ε)
    (hr : s.main = .returned r) : s.ws.length = c.concurrency ∧ ∀ w ∈ s.ws, w = .done :=
  ⟨(inv2_run h).size, (inv2_run h).ret ⟨r, hr⟩⟩

/-- C61. A worker whose reader failed is never blocked: its error always finds room. -/
theorem C61_errors_never_block {ε : Type} (c : Cfg) (s : St ε) (h : Run c (init c) s) (e : ε) (he : W.failing e ∈ s.ws) :
    s.errCh.length < c.concurrency := by
  have hi := inv2_run h
  have hlt : s.ws.countP isDone < s.ws.length := by
    rcases Nat.lt_or_ge (s.ws.countP isDone) s.ws.length with h1 | h1
    · exact h1
    · have h2 : s.ws.countP isDone = s.ws.length := le_antisymm List.countP_le_length h1
      rw [List.countP_eq_length] at h2
      have := h2 _ he
      simp [isDone] at this
  have := hi.errs
  have := hi.size
  omega

/-- C61. While the call is collecting, with at least one worker, some step of the program is always possible: the search itself
cannot deadlock. -/
theorem C61_search_never_stuck {ε : Type} [Inhabited ε] (c : Cfg) (s : St ε) (h : Run c (init c) s) (hc : 1 ≤ c.concurrency)
    (hn : 1 ≤ c.numPrimes) (g : List Pair) (hm : s.main = .collecting g) : ∃ t, Step c s t := by
  have hi := inv2_run h
  cases hp : s.primeCh with
  | cons pr rest => exact ⟨_, .recvPrime hm hp⟩
  | nil =>
    cases he : s.errCh with
    | cons e rest => exact ⟨_, .recvErr hm he⟩
    | nil =>
      by_cases hall : ∀ w ∈ s.ws, isDone w = true
      · have h2 : s.ws.countP isDone = s.ws.length := List.countP_eq_length.mpr hall
        cases hg : s.genDone with
        | true => exact ⟨_, .recvDone hm (hi.par g hm hg)⟩
        | false =>
          have h3 := hi.alive g hm hg
          rw [he, h2, hi.size] at h3
          simp at h3; omega
      · push Not at hall
        obtain ⟨w, hw, hd⟩ := hall
        obtain ⟨l, r, hlr⟩ := List.append_of_mem hw
        cases w with
        | top p q =>
          cases hg : s.genDone with
          | true => exact ⟨_, .stop hlr hg⟩
          | false => exact ⟨_, .begin hlr hg⟩
        | busy p q => exact ⟨_, .readErr default hlr⟩
        | sending pr =>
          refine ⟨_, .send hlr ?_⟩
          rw [hp]
          exact Nat.mul_pos hc hn
        | failing e => exact ⟨_, .fail hlr (C61_errors_never_block c s h e hw)⟩
        | done => simp [isDone] at hd

/-- Upper bound on the number of steps left to a worker once its context is done. -/
def weight {ε : Type} : W ε → Nat
  | .done => 0
  | .top _ _ => 1
  | .failing _ => 1
  | .sending _ => 2
  | .busy _ _ => 3

def isPending {ε : Type} : W ε → Bool
  | .busy _ _ => true
  | .sending _ => true
  | _ => false

theorem pending_eq {ε : Type} (s : St ε) : spec.pending s = s.ws.countP isPending := by
  unfold spec.pending
  congr 1

/-- The state of a call that waits with enough room in the channel. -/
structure Room {ε : Type} (c : Cfg) (s : St ε) : Prop where
  gen : s.genDone = true
  main : ∃ r, s.main = .waiting r ∨ s.main = .returned r
  free : s.primeCh.length + s.ws.countP isPending ≤ c.cap

/-- Steps left at most. -/
def left {ε : Type} (s : St ε) : Nat :=
  (s.ws.map weight).sum + match s.main with | .returned _ => 0 | _ => 1

theorem room_step {ε : Type} {c : Cfg} {s t : St ε} (h : Room c s) (st : Step c s t) : Room c t ∧ left t < left s := by
  obtain ⟨h1, ⟨x, h2⟩, h3⟩ := h
  have nc : ∀ {g}, s.main = .collecting g → False := by
    intro g hg; rcases h2 with h2 | h2 <;> rw [hg] at h2 <;> simp at h2
  have nl : ∀ {g}, s.main = .leaving g → False := by
    intro g hg; rcases h2 with h2 | h2 <;> rw [hg] at h2 <;> simp at h2
  cases st with
  | stop hw hg =>
    rw [hw] at h3
    simp only [List.countP_append, List.countP_cons, isPending] at h3
    refine ⟨⟨h1, ⟨x, h2⟩, by simpa [isPending] using h3⟩, ?_⟩
    simp only [left, hw]; simp [weight]
  | begin hw hg => rw [h1] at hg; simp at hg
  | readErr e hw =>
    rw [hw] at h3
    simp only [List.countP_append, List.countP_cons, isPending] at h3
    refine ⟨⟨h1, ⟨x, h2⟩, by simp [isPending] at h3 ⊢; omega⟩, ?_⟩
    simp only [left, hw]; simp [weight]
  | @compute l r p q bytes hw hl =>
    rw [hw] at h3
    simp only [List.countP_append, List.countP_cons, isPending] at h3
    generalize iteration c.pp (c.bitLen - 1) p bytes = o
    obtain ⟨o, a, b⟩ := o
    cases o with
    | none =>
      refine ⟨⟨h1, ⟨x, h2⟩, by
        simp only [List.countP_append, List.countP_cons, isPending, afterIteration] at h3 ⊢
        simp at h3 ⊢; omega⟩, ?_⟩
      simp only [left, hw]; simp [weight, afterIteration]
    | some pr =>
      refine ⟨⟨h1, ⟨x, h2⟩, by
        simp only [List.countP_append, List.countP_cons, isPending, afterIteration] at h3 ⊢
        simp at h3 ⊢; omega⟩, ?_⟩
      simp only [left, hw]; simp [weight, afterIteration]
  | send hw hl =>
    rw [hw] at h3
    simp only [List.countP_append, List.countP_cons, isPending] at h3
    refine ⟨⟨h1, ⟨x, h2⟩, by simp [isPending] at h3 ⊢; omega⟩, ?_⟩
    simp only [left, hw]; simp [weight]
  | fail hw hl =>
    rw [hw] at h3
    simp only [List.countP_append, List.countP_cons, isPending] at h3
    refine ⟨⟨h1, ⟨x, h2⟩, by simpa [isPending] using h3⟩, ?_⟩
    simp only [left, hw]; simp [weight]
  | recvPrime hm hc => exact (nc hm).elim
  | recvErr hm hc => exact (nc hm).elim
  | recvDone hm hp => exact (nc hm).elim
  | cancel hm => exact (nl hm).elim
  | finish hm hd =>
    refine ⟨⟨h1, ⟨_, .inr rfl⟩, h3⟩, ?_⟩
    simp [left, hm]
  | propagate hp hg => rw [h1] at hg; simp at hg

theorem room_progress {ε : Type} [Inhabited ε] {c : Cfg} {s : St ε} (h : Room c s)
    (herr : ∀ e, W.failing e ∈ s.ws → s.errCh.length < c.concurrency) (r : Result ε) (hm : s.main = .waiting r) : ∃ t, Step c s t := by
  by_cases hall : ∀ w ∈ s.ws, w = .done
  · exact ⟨_, .finish hm hall⟩
  · push Not at hall
    obtain ⟨w, hw, hd⟩ := hall
    obtain ⟨l, r, hlr⟩ := List.append_of_mem hw
    cases w with
    | top p q => exact ⟨_, .stop hlr h.gen⟩
    | busy p q => exact ⟨_, .readErr default hlr⟩
    | sending pr =>
      refine ⟨_, .send hlr ?_⟩
      have := h.free
      rw [hlr] at this
      simp only [List.countP_append, List.countP_cons, isPending] at this
      simp at this; omega
    | failing e => exact ⟨_, .fail hlr (herr e hw)⟩
    | done => exact absurd rfl hd

/-- C61. If at the moment of the cancellation the channel has room for one pair of each worker that is still searching or sending,
the call returns: every further execution of the program makes at most 3·concurrency + 1 steps, and it never stops before the
call has returned. -/
theorem C61_returns_if_room {ε : Type} [Inhabited ε] (c : Cfg) (s : St ε) (h : Run c (init c) s) (r : Result ε)
    (hm : s.main = .waiting r) (hroom : s.primeCh.length + spec.pending s ≤ c.cap) :
    (∀ t, Run c s t → (∃ r', t.main = .returned r') ∨ ∃ u, Step c t u) ∧
    (∀ f : Nat → St ε, f 0 = s → ∀ n, (∀ i < n, Step c (f i) (f (i + 1))) → n ≤ 3 * c.concurrency + 1) := by
  have hi := inv2_run h
  have room : Room c s := ⟨hi.wait ⟨r, .inl hm⟩, ⟨r, .inl hm⟩, by rw [← pending_eq]; exact hroom⟩
  have trans : ∀ {a b : St ε}, Run c (init c) a → Run c a b → Run c (init c) b := by
    intro a b ha hb
    induction hb with
    | refl => exact ha
    | tail _ st ih => exact .tail ih st
  constructor
  · intro t ht
    have hrt : Room c t := by
      clear hm
      induction ht with
      | refl => exact room
      | tail _ st ih =>
        cases st with
        | step st => exact (room_step ih st).1
        | cancelParent hp => exact ⟨ih.gen, ih.main, ih.free⟩
    obtain ⟨r', hr' | hr'⟩ := hrt.main
    · exact .inr (room_progress hrt (fun e he => C61_errors_never_block c t (trans h ht) e he) r' hr')
    · exact .inl ⟨r', hr'⟩
  · intro f h0 n hsteps
    have key : ∀ k ≤ n, Room c (f k) ∧ left (f k) + k ≤ left s := by
      intro k
      induction k with
      | zero => intro _; rw [h0]; exact ⟨room, le_refl _⟩
      | succ k ih =>
        intro hk
        obtain ⟨i1, i2⟩ := ih (by omega)
        obtain ⟨j1, j2⟩ := room_step i1 (hsteps k (by omega))
        exact ⟨j1, by omega⟩
    have h1 := (key n (le_refl n)).2
    have h2 : left s ≤ 3 * c.concurrency + 1 := by
      have hsum : ∀ l : List (W ε), (l.map weight).sum ≤ 3 * l.length := by
        intro l
        induction l with
        | nil => simp
        | cons w l ih =>
          have : weight w ≤ 3 := by cases w <;> simp [weight]
          simp only [List.map_cons, List.sum_cons, List.length_cons]; omega
      have := hsum s.ws
      rw [hi.size] at this
      unfold left
      split <;> omega
    omega

/-! ### The hanging schedule -/

theorem run_trans {ε : Type} {c : Cfg} {a b d : St ε} (h1 : Run c a b) (h2 : Run c b d) : Run c a d := by
  induction h2 with
  | refl => exact h1
  | tail _ st ih => exact .tail ih st

theorem run_one {ε : Type} {c : Cfg} {a b : St ε} (h : Step c a b) : Run c a b := .tail .refl (.step h)

/-- One worker finds and sends a pair. -/
theorem run_emit {ε : Type} {c : Cfg} {bytes : Bytes} {pr : Pair} (hl : bytes.length = (c.bitLen - 1 + 7) / 8)
    (he : ∀ p, ∃ a b, iteration c.pp (c.bitLen - 1) p bytes = (some pr, a, b)) {r : List (W ε)} {ch : List Pair} {er : List ε}
    {pd : Bool} {m : Main ε} (p q : Nat) (hroom : ch.length < c.cap) :
    Run c ⟨.top p q :: r, ch, er, pd, false, m⟩ ⟨.top 0 0 :: r, ch ++ [pr], er, pd, false, m⟩ := by
  obtain ⟨a, b, hab⟩ := he p
  have s1 : Step c ⟨.top p q :: r, ch, er, pd, false, m⟩ ⟨.busy p q :: r, ch, er, pd, false, m⟩ :=
    Step.begin (s := ⟨.top p q :: r, ch, er, pd, false, m⟩) (l := []) rfl rfl
  have s2 : Step c ⟨.busy p q :: r, ch, er, pd, false, m⟩ ⟨.sending pr :: r, ch, er, pd, false, m⟩ := by
    have := Step.compute (c := c) (s := ⟨.busy p q :: r, ch, er, pd, false, m⟩) (l := []) bytes rfl hl
    rw [hab] at this
    exact this
  have s3 : Step c ⟨.sending pr :: r, ch, er, pd, false, m⟩ ⟨.top 0 0 :: r, ch ++ [pr], er, pd, false, m⟩ :=
    Step.send (s := ⟨.sending pr :: r, ch, er, pd, false, m⟩) (l := []) rfl hroom
  exact run_trans (run_one s1) (run_trans (run_one s2) (run_one s3))

/-- The call collects `k` pairs from one worker. -/
theorem run_collect {ε : Type} {c : Cfg} {bytes : Bytes} {pr : Pair} (hl : bytes.length = (c.bitLen - 1 + 7) / 8)
    (he : ∀ p, ∃ a b, iteration c.pp (c.bitLen - 1) p bytes = (some pr, a, b)) (hcap : 0 < c.cap) {r : List (W ε)} :
    ∀ (k : Nat) (g : List Pair), g.length + k < c.numPrimes →
      Run c (⟨.top 0 0 :: r, [], [], false, false, .collecting g⟩ : St ε)
        ⟨.top 0 0 :: r, [], [], false, false, .collecting (g ++ List.replicate k pr)⟩
  | 0, g, _ => by simpa using Run.refl
  | k + 1, g, h => by
    have h1 := run_emit (r := r) (er := ([] : List ε)) (pd := false) (m := .collecting g) hl he 0 0 (ch := []) (by simpa using hcap)
    have h2 : Step c (⟨.top 0 0 :: r, [] ++ [pr], [], false, false, .collecting g⟩ : St ε)
        ⟨.top 0 0 :: r, [], [], false, false, onPrime c.numPrimes g pr⟩ :=
      Step.recvPrime (s := ⟨.top 0 0 :: r, [] ++ [pr], [], false, false, .collecting g⟩) rfl rfl
    rw [show onPrime (ε := ε) c.numPrimes g pr = .collecting (g ++ [pr]) by
      unfold onPrime; rw [if_neg]; simp only [List.length_append, List.length_singleton]; omega] at h2
    have h3 := run_collect hl he hcap (r := r) k (g ++ [pr]) (by simp only [List.length_append, List.length_singleton]; omega)
    have e : g ++ List.replicate (k + 1) pr = g ++ [pr] ++ List.replicate k pr := by simp [List.replicate_succ]
    rw [e]
    exact run_trans h1 (run_trans (run_one h2) h3)

/-- One worker fills the channel. -/
theorem run_fill {ε : Type} {c : Cfg} {bytes : Bytes} {pr : Pair} (hl : bytes.length = (c.bitLen - 1 + 7) / 8)
    (he : ∀ p, ∃ a b, iteration c.pp (c.bitLen - 1) p bytes = (some pr, a, b)) {r : List (W ε)} {m : Main ε} :
    ∀ (k : Nat) (ch : List Pair), ch.length + k ≤ c.cap →
      Run c (⟨.top 0 0 :: r, ch, [], false, false, m⟩ : St ε) ⟨.top 0 0 :: r, ch ++ List.replicate k pr, [], false, false, m⟩
  | 0, ch, _ => by simpa using Run.refl
  | k + 1, ch, h => by
    have h1 := run_emit (r := r) (er := ([] : List ε)) (pd := false) (m := m) hl he 0 0 (ch := ch) (by omega)
    have h3 := run_fill hl he (r := r) (m := m) k (ch ++ [pr]) (by simp only [List.length_append, List.length_singleton]; omega)
    have e : ch ++ List.replicate (k + 1) pr = ch ++ [pr] ++ List.replicate k pr := by simp [List.replicate_succ]
    rw [e]
    exact run_trans h1 h3

/-- With the channel full, nobody receiving, and a worker about to send, nothing can help. -/
theorem hung_of {ε : Type} {c : Cfg} {s : St ε} {r : Result ε} {pr : Pair} (hm : s.main = .waiting r)
    (hw : ∃ l, s.ws = .sending pr :: l) (hfull : s.primeCh.length = c.cap) : spec.Hung c s := by
  refine ⟨r, ?_⟩
  have key : ∀ t, Run c s t → t.main = .waiting r ∧ (∃ l, t.ws = .sending pr :: l) ∧ t.primeCh.length = c.cap := by
    intro t ht
    induction ht with
    | refl => exact ⟨hm, hw, hfull⟩
    | @tail t u _ st ih =>
      obtain ⟨i1, ⟨lw, i2⟩, i3⟩ := ih
      -- the head of the list is the blocked worker; a step of another worker keeps it
      have other : ∀ {l r : List (W ε)} {w w' : W ε}, t.ws = l ++ w :: r → w ≠ .sending pr →
          ∃ l', l ++ w' :: r = W.sending pr :: l' := by
        intro l r w w' h hne
        rw [i2] at h
        cases l with
        | nil => simp only [List.nil_append, List.cons.injEq] at h; exact absurd h.1.symm hne
        | cons a l => simp only [List.cons_append, List.cons.injEq] at h; exact ⟨l ++ w' :: r, by rw [h.1]; rfl⟩
      cases st with
      | cancelParent _ => exact ⟨i1, ⟨lw, i2⟩, i3⟩
      | step st =>
        cases st with
        | stop hw hg => exact ⟨i1, other hw (by simp), i3⟩
        | begin hw hg => exact ⟨i1, other hw (by simp), i3⟩
        | readErr e hw => exact ⟨i1, other hw (by simp), i3⟩
        | compute b hw hl => exact ⟨i1, other hw (by simp), i3⟩
        | send hw hl => omega
        | fail hw hl => exact ⟨i1, other hw (by simp), i3⟩
        | recvPrime hm _ => rw [i1] at hm; simp at hm
        | recvErr hm _ => rw [i1] at hm; simp at hm
        | recvDone hm _ => rw [i1] at hm; simp at hm
        | cancel hm => rw [i1] at hm; simp at hm
        | finish hm hd =>
          have := hd (.sending pr) (by rw [i2]; simp)
          simp at this
        | propagate _ _ => exact ⟨i1, ⟨lw, i2⟩, i3⟩
  exact fun t ht => (key t ht).1

/-- C61. For every number of workers and of primes wanted, if some bytes make a worker find a pair, there is a schedule after which
the call has all its primes and yet never returns: a worker is blocked on the full channel and the call waits for it. -/
theorem C61_can_hang {ε : Type} (c : Cfg) (hc : 1 ≤ c.concurrency) (hn : 1 ≤ c.numPrimes) (bytes : Bytes) (pr : Pair)
    (hl : bytes.length = (c.bitLen - 1 + 7) / 8)
    (he : ∀ p, ∃ a b, iteration c.pp (c.bitLen - 1) p bytes = (some pr, a, b)) :
    ∃ s : St ε, Run c (init c) s ∧ spec.Hung c s ∧ s.main = .waiting (.primes (List.replicate c.numPrimes pr)) := by
  have hcap : 0 < c.cap := Nat.mul_pos hc hn
  obtain ⟨k, hk⟩ : ∃ k, c.concurrency = k + 1 := ⟨c.concurrency - 1, by omega⟩
  obtain ⟨j, hj⟩ : ∃ j, c.numPrimes = j + 1 := ⟨c.numPrimes - 1, by omega⟩
  set r : List (W ε) := List.replicate k (.top 0 0) with hr
  have hinit : init c = (⟨.top 0 0 :: r, [], [], false, false, .collecting []⟩ : St ε) := by
    unfold init; rw [hk]; rfl
  have a1 := run_collect hl he hcap (r := r) j [] (by simp only [List.length_nil]; omega)
  rw [List.nil_append] at a1
  have a2 := run_emit (r := r) (er := ([] : List ε)) (pd := false) (m := .collecting (List.replicate j pr)) hl he 0 0 (ch := [])
    (by simpa using hcap)
  rw [List.nil_append] at a2
  have a3 : Step c (⟨.top 0 0 :: r, [pr], [], false, false, .collecting (List.replicate j pr)⟩ : St ε)
      ⟨.top 0 0 :: r, [], [], false, false, onPrime c.numPrimes (List.replicate j pr) pr⟩ :=
    Step.recvPrime (s := ⟨.top 0 0 :: r, [pr], [], false, false, .collecting (List.replicate j pr)⟩) rfl rfl
  rw [show onPrime (ε := ε) c.numPrimes (List.replicate j pr) pr = .leaving (.primes (List.replicate c.numPrimes pr)) by
    unfold onPrime
    have e : List.replicate j pr ++ [pr] = List.replicate c.numPrimes pr := by rw [hj, List.replicate_succ']
    rw [e, if_pos (by simp), List.take_of_length_le (by simp)]] at a3
  have a4 := run_fill hl he (r := r) (m := (.leaving (.primes (List.replicate c.numPrimes pr)) : Main ε)) c.cap [] (by simp)
  rw [List.nil_append] at a4
  set full := List.replicate c.cap pr with hfull
  obtain ⟨x, y, hxy⟩ := he 0
  have s1 : Step c (⟨.top 0 0 :: r, full, [], false, false, .leaving (.primes (List.replicate c.numPrimes pr))⟩ : St ε)
      ⟨.busy 0 0 :: r, full, [], false, false, .leaving (.primes (List.replicate c.numPrimes pr))⟩ :=
    Step.begin (s := ⟨.top 0 0 :: r, full, [], false, false, .leaving (.primes (List.replicate c.numPrimes pr))⟩) (l := []) rfl rfl
  have s2 : Step c (⟨.busy 0 0 :: r, full, [], false, false, .leaving (.primes (List.replicate c.numPrimes pr))⟩ : St ε)
      ⟨.sending pr :: r, full, [], false, false, .leaving (.primes (List.replicate c.numPrimes pr))⟩ := by
    have := Step.compute (c := c) (s := (⟨.busy 0 0 :: r, full, [], false, false,
      .leaving (.primes (List.replicate c.numPrimes pr))⟩ : St ε)) (l := []) bytes rfl hl
    rw [hxy] at this
    exact this
  have s3 : Step c (⟨.sending pr :: r, full, [], false, false, .leaving (.primes (List.replicate c.numPrimes pr))⟩ : St ε)
      ⟨.sending pr :: r, full, [], false, true, .waiting (.primes (List.replicate c.numPrimes pr))⟩ :=
    Step.cancel (s := ⟨.sending pr :: r, full, [], false, false, .leaving (.primes (List.replicate c.numPrimes pr))⟩) rfl
  refine ⟨⟨.sending pr :: r, full, [], false, true, .waiting (.primes (List.replicate c.numPrimes pr))⟩, ?_, ?_, rfl⟩
  · rw [hinit]
    exact run_trans a1 (run_trans a2 (run_trans (run_one a3) (run_trans a4 (run_trans (run_one s1)
      (run_trans (run_one s2) (run_one s3))))))
  · exact hung_of rfl ⟨r, rfl⟩ (by simp [hfull])

/-- The hypothesis of `C61_can_hang` holds for 6-bit safe primes and an exact primality test: whatever was left from the previous
iteration, the byte 0x1d yields the pair (59, 29). -/
theorem iteration_any (p : Nat) : ∃ a b, iteration exact 5 p [0x1d] = (some ⟨59, 29⟩, a, b) := by
  have c0 : candidate 5 [0x1d] = 29 := by decide +kernel
  have c1 : 29 % smallPrimesProduct = 29 := by decide +kernel
  have e : deltaLoop 5 29 (2 ^ 19) 0 p 29 = (59, 29) := by
    rw [show (2 : ℕ) ^ 19 = (2 ^ 19 - 1) + 1 by norm_num, deltaLoop]
    rw [if_neg (by decide +kernel)]
    simp only [lt_irrefl, if_false]
    rw [if_neg (by decide), if_neg (by decide +kernel)]
  have h1 : exact 20 29 = true := by simp [exact]; norm_num
  have h2 : Validate exact ⟨59, 29⟩ = true := by simp [Validate, exact, getSafePrime]; norm_num
  have h3 : isPocklington 59 = true := by decide +kernel
  have h4 : bitLen ((29 : ℕ) : Int) = 5 := by decide +kernel
  refine ⟨0, 0, ?_⟩
  unfold iteration
  simp only
  rw [c0, c1, e]
  simp only [h1, h2, h3, h4]
  rfl

example : ∃ s : St Unit, Run ⟨exact, 6, 2, 3⟩ (init ⟨exact, 6, 2, 3⟩) s ∧ spec.Hung ⟨exact, 6, 2, 3⟩ s ∧
    s.main = .waiting (.primes [⟨59, 29⟩, ⟨59, 29⟩]) :=
  C61_can_hang ⟨exact, 6, 2, 3⟩ (by decide) (by decide) [0x1d] ⟨59, 29⟩ (by decide) iteration_any

end Tss.SafePrime
