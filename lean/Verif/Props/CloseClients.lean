import Verif.CloseClients

/-!
# Property C90: CloseClientConnections of the test server
-/

namespace Verif.Props

open Verif

/-- What holds of the connections in every state. -/
private structure GInv (s : Closers) : Prop where
  pnodup : s.pending.Nodup
  nodup : s.conns.Nodup
  apart : ∀ c ∈ s.pending, c ∉ s.conns
  pbelow : ∀ c ∈ s.pending, c < s.count
  below : ∀ c ∈ s.conns, c < s.count

/-- What holds of every call `k` in every state. -/
private structure KInv (cl : Bool) (s : Closers) (k : Nat) : Prop where
  base : s.base k <+: s.conns
  size : s.size k = (s.base k).length
  start : s.pc k = .ranging → s.base k <+: s.start k
  seenIn : ∀ c ∈ s.seen k, c ∈ s.conns
  seenNodup : (s.seen k).Nodup
  acct : s.got k + s.buf k + (s.toSend k).length + (s.toClose k).length = (s.seen k).length
  shutOr : ∀ c ∈ s.seen k, c ∈ s.shut ∨ c ∈ s.toClose k
  closeIn : ∀ c ∈ s.toClose k, c ∈ s.conns
  early : s.pc k = .idle ∨ s.pc k = .locked ∨ s.pc k = .counted → s.seen k = []
  fresh : s.pc k = .idle ∨ s.pc k = .locked → s.base k = []
  full : s.pc k = .waiting ∨ s.pc k = .ending ∨ s.pc k = .done → ∀ c ∈ s.base k, c ∈ s.seen k
  fin : s.pc k = .ending ∨ s.pc k = .done → s.timeout k = false → s.got k = s.size k
  mu : s.mu = some k → cl = true ∧ s.pc k ≠ .idle ∧ s.pc k ≠ .done
  lock : cl = true → s.pc k = .idle ∨ s.pc k = .done ∨ s.mu = some k
  locked : s.pc k = .locked → cl = true
  still : cl = true → s.pc k ≠ .idle → s.pc k ≠ .locked → s.pc k ≠ .done → s.conns = s.base k
  exact : cl = true → s.pc k = .done → (s.seen k).length = s.size k

private theorem GInv.init : GInv .init := by constructor <;> simp [Closers.init]

private theorem KInv.init (cl : Bool) (k : Nat) : KInv cl .init k := by constructor <;> simp [Closers.init]

private theorem GInv.step {cl : Nat → Bool} {s t : Closers} (h : GInv s) (hs : Closers.Step cl s t) : GInv t := by
  obtain ⟨h1, h2, h3, h4, h5⟩ := h
  cases hs with
  | accept hc hl =>
    refine ⟨?_, h2, ?_, ?_, ?_⟩
    · rw [List.nodup_append]; grind
    all_goals grind
  | track c hc hm hp =>
    refine ⟨h1.erase _, ?_, ?_, ?_, ?_⟩
    · rw [List.nodup_append]; grind
    · intro d hd he
      have := List.mem_of_mem_erase hd
      have : d ≠ c := fun e => (List.Nodup.not_mem_erase h1) (e ▸ hd)
      grind
    · intro d hd; exact h4 d (List.mem_of_mem_erase hd)
    · grind
  | _ => exact ⟨h1, h2, h3, h4, h5⟩

private theorem subset_length {a b : List Nat} (ha : a.Nodup) (h : ∀ c ∈ a, c ∈ b) : a.length ≤ b.length := by
  induction a generalizing b with
  | nil => simp
  | cons x a ih =>
    have hx := h x (List.mem_cons_self ..)
    have hn := List.nodup_cons.1 ha
    have := ih (b := b.erase x) hn.2 fun c hc =>
      (List.mem_erase_of_ne (fun e : c = x => hn.1 (by rw [← e]; exact hc))).2 (h c (List.mem_cons_of_mem _ hc))
    have := List.length_erase_of_mem hx
    have := List.length_pos_of_mem hx
    simp only [List.length_cons]; omega

private theorem KInv.step {cl : Nat → Bool} {s t : Closers} (hg : GInv s) (h : ∀ k, KInv (cl k) s k)
    (hs : Closers.Step cl s t) (j : Nat) : KInv (cl j) t j := by
  have hj := h j
  cases hs with
  | accept hc hl => exact ⟨hj.1, hj.2, hj.3, hj.4, hj.5, hj.6, hj.7, hj.8, hj.9, hj.10, hj.11, hj.12, hj.13, hj.14, hj.15, hj.16, hj.17⟩
  | track c hc hm hp =>
    obtain ⟨h1, h2, h3, h4, h5, h6, h7, h8, h9, h10, h11, h12, h13, h14, h15, h16, h17⟩ := hj
    refine ⟨h1.trans (List.prefix_append ..), h2, h3, ?_, h5, h6, h7, ?_, h9, h10, h11, h12, h13, h14, h15, ?_, h17⟩
    · grind
    · grind
    · grind
  | crash c k hc hm hp hk => exact ⟨hj.1, hj.2, hj.3, hj.4, hj.5, hj.6, hj.7, hj.8, hj.9, hj.10, hj.11, hj.12, hj.13, hj.14, hj.15, hj.16, hj.17⟩
  | gone c hc hb =>
    obtain ⟨h1, h2, h3, h4, h5, h6, h7, h8, h9, h10, h11, h12, h13, h14, h15, h16, h17⟩ := hj
    exact ⟨h1, h2, h3, h4, h5, h6, fun d hd => (h7 d hd).imp (List.mem_cons_of_mem _) id, h8, h9, h10, h11, h12, h13,
      h14, h15, h16, h17⟩
  | visit k c hc hp hm hn =>
    obtain ⟨h1, h2, h3, h4, h5, h6, h7, h8, h9, h10, h11, h12, h13, h14, h15, h16, h17⟩ := hj
    rcases Decidable.em (j = k) with rfl | hne
    · constructor <;> simp only [setAt_same] <;> grind
    · constructor <;> simp only [setAt_other _ _ hne] <;> assumption
  | shut k c hc hm =>
    obtain ⟨h1, h2, h3, h4, h5, h6, h7, h8, h9, h10, h11, h12, h13, h14, h15, h16, h17⟩ := hj
    rcases Decidable.em (j = k) with rfl | hne
    · refine ⟨h1, h2, h3, h4, h5, ?_, ?_, ?_, h9, h10, h11, h12, h13, h14, h15, h16, h17⟩
      · have := List.length_erase_of_mem hm
        have := List.length_pos_of_mem hm
        simp only [setAt_same, List.length_cons]; omega
      · intro d hd
        simp only [setAt_same]
        rcases Decidable.em (d = c) with rfl | hne
        · exact .inl (List.mem_cons_self ..)
        · exact (h7 d hd).imp (List.mem_cons_of_mem _) (fun h => (List.mem_erase_of_ne hne).2 h)
      · simp only [setAt_same]
        exact fun d hd => h8 d (List.mem_of_mem_erase hd)
    · refine ⟨h1, h2, h3, h4, h5, ?_, ?_, ?_, h9, h10, h11, h12, h13, h14, h15, h16, h17⟩ <;>
        simp only [setAt_other _ _ hne]
      · exact h6
      · exact fun d hd => (h7 d hd).imp (List.mem_cons_of_mem _) id
      · exact h8
  | notify k c hc hm hb =>
    obtain ⟨h1, h2, h3, h4, h5, h6, h7, h8, h9, h10, h11, h12, h13, h14, h15, h16, h17⟩ := hj
    rcases Decidable.em (j = k) with rfl | hne
    · have := List.length_erase_of_mem hm
      have := List.length_pos_of_mem hm
      constructor <;> simp only [setAt_same] <;> first | assumption | omega
    · constructor <;> simp only [setAt_other _ _ hne] <;> assumption
  | take k hc hp hg' hb =>
    obtain ⟨h1, h2, h3, h4, h5, h6, h7, h8, h9, h10, h11, h12, h13, h14, h15, h16, h17⟩ := hj
    rcases Decidable.em (j = k) with rfl | hne
    · constructor <;> simp only [setAt_same] <;> first | assumption | omega | simp [hp]
    · constructor <;> simp only [setAt_other _ _ hne] <;> assumption
  | ret k hc hp =>
    have hk := h k
    obtain ⟨h1, h2, h3, h4, h5, h6, h7, h8, h9, h10, h11, h12, h13, h14, h15, h16, h17⟩ := hj
    rcases Decidable.em (j = k) with rfl | hne
    · have hlen : cl j = true → (s.seen j).length = s.size j := by
        intro hcl
        have e := h16 hcl (by simp [hp]) (by simp [hp]) (by simp [hp])
        have a := subset_length h5 (b := s.base j) (by rw [← e]; exact h4)
        have b := subset_length (b := s.seen j) (e ▸ hg.nodup) (h11 (by simp [hp]))
        omega
      constructor <;> simp only [setAt_same] <;> grind
    · have hmu : s.mu = some j → cl k = false := by
        intro hm
        cases hcl : cl k with
        | false => rfl
        | true =>
          have := hk.lock hcl
          simp only [hp, hm, reduceCtorEq, false_or, Option.some.injEq] at this
          exact absurd this hne
      constructor <;> simp only [setAt_other _ _ hne] <;> grind
  | lock k hc hm hk hp =>
    obtain ⟨h1, h2, h3, h4, h5, h6, h7, h8, h9, h10, h11, h12, h13, h14, h15, h16, h17⟩ := hj
    rcases Decidable.em (j = k) with rfl | hne
    · constructor <;> simp only [setAt_same] <;> grind
    · constructor <;> simp only [setAt_other _ _ hne] <;> grind
  | again k hc hp hcl =>
    have hk := h k
    have hm : s.mu = some k := by have := hk.lock (hk.locked hp); simpa [hp] using this
    obtain ⟨h1, h2, h3, h4, h5, h6, h7, h8, h9, h10, h11, h12, h13, h14, h15, h16, h17⟩ := hj
    rcases Decidable.em (j = k) with rfl | hne
    · constructor <;> simp only [setAt_same] <;> grind
    · constructor <;> simp only [setAt_other _ _ hne] <;> grind
  | first k hc hp hcl =>
    obtain ⟨h1, h2, h3, h4, h5, h6, h7, h8, h9, h10, h11, h12, h13, h14, h15, h16, h17⟩ := hj
    rcases Decidable.em (j = k) with rfl | hne
    · constructor <;> simp only [setAt_same] <;> grind
    · constructor <;> simp only [setAt_other _ _ hne] <;> assumption
  | size k hc hk hp =>
    obtain ⟨h1, h2, h3, h4, h5, h6, h7, h8, h9, h10, h11, h12, h13, h14, h15, h16, h17⟩ := hj
    rcases Decidable.em (j = k) with rfl | hne
    · constructor <;> simp only [setAt_same] <;> grind
    · constructor <;> simp only [setAt_other _ _ hne] <;> assumption
  | range k hc hp =>
    obtain ⟨h1, h2, h3, h4, h5, h6, h7, h8, h9, h10, h11, h12, h13, h14, h15, h16, h17⟩ := hj
    rcases Decidable.em (j = k) with rfl | hne
    · constructor <;> simp only [setAt_same] <;> grind
    · constructor <;> simp only [setAt_other _ _ hne] <;> assumption
  | ranged k hc hp hall =>
    obtain ⟨h1, h2, h3, h4, h5, h6, h7, h8, h9, h10, h11, h12, h13, h14, h15, h16, h17⟩ := hj
    rcases Decidable.em (j = k) with rfl | hne
    · have := (h3 hp).subset
      constructor <;> simp only [setAt_same] <;> grind
    · constructor <;> simp only [setAt_other _ _ hne] <;> assumption
  | finish k hc hp hg' =>
    obtain ⟨h1, h2, h3, h4, h5, h6, h7, h8, h9, h10, h11, h12, h13, h14, h15, h16, h17⟩ := hj
    rcases Decidable.em (j = k) with rfl | hne
    · constructor <;> simp only [setAt_same] <;> grind
    · constructor <;> simp only [setAt_other _ _ hne] <;> assumption
  | expire k hc hp hg' =>
    obtain ⟨h1, h2, h3, h4, h5, h6, h7, h8, h9, h10, h11, h12, h13, h14, h15, h16, h17⟩ := hj
    rcases Decidable.em (j = k) with rfl | hne
    · constructor <;> simp only [setAt_same] <;> grind
    · constructor <;> simp only [setAt_other _ _ hne] <;> assumption

private theorem inv {cl : Nat → Bool} {s : Closers} (h : Closers.Steps cl .init s) :
    GInv s ∧ ∀ k, KInv (cl k) s k := by
  induction h with
  | refl => exact ⟨.init, fun k => .init _ k⟩
  | step _ hs ih => exact ⟨ih.1.step hs, fun k => KInv.step ih.1 ih.2 hs k⟩

private theorem stepsTrans {cl : Nat → Bool} {s t u : Closers} (h1 : Closers.Steps cl s t)
    (h2 : Closers.Steps cl t u) : Closers.Steps cl s u := by
  induction h2 with
  | refl => exact h1
  | step _ hs ih => exact ih.step hs

private theorem conns_grow {cl : Nat → Bool} {s t : Closers} (h : Closers.Steps cl s t) : s.conns <+: t.conns := by
  induction h with
  | refl => exact List.prefix_refl _
  | step _ hs ih => cases hs <;> first | exact ih | exact ih.trans (List.prefix_append ..)

private theorem base_taken {cl : Nat → Bool} {s t : Closers} (h : Closers.Steps cl s t) (k : Nat) (hk : cl k = false)
    (hl : s.pc k = .idle) (ht : t.pc k ≠ .idle) : t.pc k ≠ .locked ∧ s.conns <+: t.base k := by
  induction h with
  | refl => exact absurd hl ht
  | @step t u hst hs ih =>
    have hc := conns_grow hst
    cases hs <;> grind [setAt]

/-- Everything the call found is shut when all its notifications have arrived. -/
private theorem KInv.all {cl : Bool} {s : Closers} {k : Nat} (h : KInv cl s k) (hp : s.pc k = .ending ∨ s.pc k = .done)
    (ht : s.timeout k = false) (hl : (s.seen k).length ≤ s.size k) : ∀ c ∈ s.base k, c ∈ s.shut := by
  intro c hc
  have hf := h.fin hp ht
  have ha := h.acct
  rcases h.shutOr c (h.full (.inr hp) c hc) with h | h
  · exact h
  · have := List.length_pos_of_mem h
    omega

/-- C90.  A call of `CloseClientConnections` during which no connection is tracked: when it has
returned, and unless its five second timer fired, every connection that was tracked when it was made
is closed; whatever other calls, `Close` among them, and their goroutines do at the same time.
Missing: calls while clients connect, see `closeClients_early_false` and `closeClients_crash_false`. -/
theorem closeClients_partial {cl : Nat → Bool} {s t : Closers} (h1 : Closers.Steps cl .init s)
    (h2 : Closers.Steps cl s t) (k : Nat) (hk : cl k = false) (hi : s.pc k = .idle) (hd : t.pc k = .done)
    (htm : t.timeout k = false) (hq : t.conns = s.conns) : ∀ c ∈ s.conns, c ∈ t.shut := by
  have h12 := stepsTrans h1 h2
  obtain ⟨hg, ht⟩ := inv h12
  have hb := (base_taken h2 k hk hi (by simp [hd])).2
  have hk' := ht k
  have hlen : (t.base k).length ≤ s.conns.length := by have := hk'.base.length_le; rwa [hq] at this
  have he : s.conns = t.base k := hb.eq_of_length_le hlen
  rw [he]
  refine hk'.all (.inr hd) htm ?_
  have := subset_length hk'.seenNodup (b := t.base k) (by rw [← he, ← hq]; exact hk'.seenIn)
  rw [hk'.size]; exact this

/-- What holds of calls of `Close` among each other. -/
private structure LInv (cl : Nat → Bool) (s : Closers) : Prop where
  closed : ∀ k, cl k = true → s.pc k ≠ .idle → s.pc k ≠ .locked → s.closed = true
  first : ∀ k, cl k = true → s.pc k ≠ .idle → s.pc k ≠ .locked → s.pc k ≠ .done →
    ∀ j, cl j = true → s.pc j ≠ .done

private theorem LInv.step {cl : Nat → Bool} {s t : Closers} (h : ∀ k, KInv (cl k) s k) (hl : LInv cl s)
    (hs : Closers.Step cl s t) : LInv cl t := by
  obtain ⟨h1, h2⟩ := hl
  have hm : ∀ k, cl k = true → s.pc k = .idle ∨ s.pc k = .done ∨ s.mu = some k := fun k => (h k).lock
  have hx : ∀ k, s.pc k = .locked → cl k = true := fun k => (h k).locked
  clear h
  cases hs <;> constructor <;> grind [setAt]

private theorem linv {cl : Nat → Bool} {s : Closers} (h : Closers.Steps cl .init s) : LInv cl s := by
  induction h with
  | refl => constructor <;> simp [Closers.init]
  | step h' hs ih => exact LInv.step (inv h').2 ih hs

private theorem first_taken {cl : Nat → Bool} {s t : Closers} (h1 : Closers.Steps cl .init s)
    (h : Closers.Steps cl s t) (hs : s.closed = false) (ht : t.closed = true) :
    ∃ k, cl k = true ∧ t.pc k ≠ .idle ∧ t.pc k ≠ .locked ∧ s.conns <+: t.base k := by
  induction h with
  | refl => simp [hs] at ht
  | @step t u hst hstep ih =>
    have hc := conns_grow hst
    have ht' := stepsTrans h1 hst
    have hx : ∀ k, t.pc k = .locked → cl k = true := fun k => ((inv ht').2 k).locked
    by_cases hcl : t.closed = true
    · obtain ⟨k, a, b, c, d⟩ := ih hcl
      refine ⟨k, a, ?_⟩
      cases hstep <;> grind [setAt]
    · cases hstep with
      | first k hcr hp hc0 =>
        refine ⟨k, hx k hp, ?_⟩
        simp [hc]
      | _ => exact absurd ht hcl

/-- C90.  `Close` has the lock while it goes over the map, so here clients may connect at any time,
and others may call `CloseClientConnections`: when any call of `Close` has returned, and unless the
timer of one fired, every connection that was tracked in any state before the first of them took
effect is closed.  (`testServer_close_partial`, with every access to the map a step of its own.) -/
theorem closeClients_close {cl : Nat → Bool} {s t : Closers} (h1 : Closers.Steps cl .init s)
    (hs : s.closed = false) (h2 : Closers.Steps cl s t) (k : Nat) (hk : cl k = true) (hd : t.pc k = .done)
    (htm : ∀ j, cl j = true → t.timeout j = false) : ∀ c ∈ s.conns, c ∈ t.shut := by
  have h12 := stepsTrans h1 h2
  have hl := linv h12
  obtain ⟨j, a, b, c, d⟩ := first_taken h1 h2 hs (hl.closed k hk (by simp [hd]) (by simp [hd]))
  have hj : t.pc j = .done := by
    by_cases hj : t.pc j = .done
    · exact hj
    · exact absurd hd (hl.first j a b c hj k hk)
  have hkj := (inv h12).2 j
  exact fun x hx => hkj.all (.inr hj) (htm j a) (Nat.le_of_eq (hkj.exact a hj)) x (d.subset hx)

/-- C90.  Only tracked connections, which the server has accepted, are closed by the goroutines of a
call. -/
theorem closeClients_only {cl : Nat → Bool} {s : Closers} (h : Closers.Steps cl .init s) (k c : Nat)
    (hc : c ∈ s.toClose k) : c ∈ s.conns ∧ c < s.count :=
  ⟨((inv h).2 k).closeIn c hc, (inv h).1.below c (((inv h).2 k).closeIn c hc)⟩

/-- C90.  Once a call of `Close` has returned, the first or another, the server accepts no connection
any more, whatever else happens. -/
theorem closeClients_stops {cl : Nat → Bool} {s t : Closers} (h1 : Closers.Steps cl .init s) (k : Nat)
    (hk : cl k = true) (hd : s.pc k = .done) (h2 : Closers.Steps cl s t) : t.count = s.count := by
  have hl : ∀ {u : Closers}, Closers.Steps cl .init u → u.closed = true → u.listening = false := by
    intro u h
    induction h with
    | refl => intro h; cases h
    | step h' hs ih => cases hs <;> first | exact ih | exact fun _ => rfl
  have hc := (linv h1).closed k hk (by simp [hd]) (by simp [hd])
  suffices h : t.count = s.count ∧ t.closed = true from h.1
  induction h2 with
  | refl => exact ⟨rfl, hc⟩
  | step h' hs ih =>
    have hn := hl (stepsTrans h1 h') ih.2
    cases hs <;> first | exact ih | exact ⟨ih.1, rfl⟩ | simp_all

/-- C90.  Calls of `CloseClientConnections` alone, however many, do not close the server: unless the
program has been stopped it accepts connections. -/
theorem closeClients_serving {s : Closers} (h : Closers.Steps (fun _ => false) .init s) :
    s.listening = true ∧ s.closed = false ∧
      (s.crashed = false → ∃ t, Closers.Step (fun _ => false) s t ∧ t.count = s.count + 1) := by
  have key : s.listening = true ∧ s.closed = false := by
    induction h with
    | refl => exact ⟨rfl, rfl⟩
    | step h' hs ih =>
      have hx := fun k => ((inv h').2 k).locked
      cases hs <;> first | exact ih | simp_all
  exact ⟨key.1, key.2, fun hc => ⟨_, .accept _ hc key.1, rfl⟩⟩

private theorem start_in {cl : Nat → Bool} {s : Closers} (h : Closers.Steps cl .init s) (k : Nat) :
    ∀ c ∈ s.start k, c ∈ s.conns := by
  induction h with
  | refl => simp [Closers.init]
  | step h' hs ih =>
    cases hs <;> grind [setAt]

private theorem got_le {cl : Nat → Bool} {s : Closers} (h : Closers.Steps cl .init s) (k : Nat) :
    s.got k ≤ s.size k ∧ (s.pc k = .idle ∨ s.pc k = .locked → s.got k = 0) := by
  induction h with
  | refl => simp [Closers.init]
  | step h' hs ih =>
    cases hs <;> grind [setAt]

private theorem ranges {cl : Nat → Bool} (k : Nat) (l : List Nat) : ∀ s : Closers, s.crashed = false →
    s.pc k = .ranging → (∀ c ∈ l, c ∈ s.conns) →
    ∃ t, Closers.Steps cl s t ∧ t.crashed = false ∧ t.pc k = .ranging ∧ t.start = s.start ∧
      (∀ c ∈ s.seen k, c ∈ t.seen k) ∧ ∀ c ∈ l, c ∈ t.seen k := by
  induction l with
  | nil => exact fun s hc hp _ => ⟨s, .refl s, hc, hp, rfl, fun _ h => h, by simp⟩
  | cons a l ih =>
    intro s hc hp hl
    by_cases ha : a ∈ s.seen k
    · obtain ⟨t, h1, h2, h3, h4, h5, h6⟩ := ih s hc hp fun c hc => hl c (List.mem_cons_of_mem _ hc)
      refine ⟨t, h1, h2, h3, h4, h5, fun c hc => ?_⟩
      rcases List.mem_cons.1 hc with rfl | h
      · exact h5 _ ha
      · exact h6 c h
    · have hv := Closers.Step.visit (cl := cl) s k a hc hp (hl a (List.mem_cons_self ..)) ha
      obtain ⟨t, h1, h2, h3, h4, h5, h6⟩ := ih { s with
          seen := setAt s.seen k (a :: s.seen k), toClose := setAt s.toClose k (a :: s.toClose k) } hc hp
        (fun c hc => hl c (List.mem_cons_of_mem _ hc))
      simp only [setAt_same] at h5
      refine ⟨t, stepsTrans ((Closers.Steps.refl s).step hv) h1, h2, h3, h4,
        fun c hc => h5 c (List.mem_cons_of_mem _ hc), fun c hc => ?_⟩
      rcases List.mem_cons.1 hc with rfl | h
      · exact h5 _ (List.mem_cons_self ..)
      · exact h6 c h

/-- C90.  A call does not hang: unless the program has been stopped, it can return whatever the
connections, their goroutines and the other calls do or do not do. -/
theorem closeClients_returns {cl : Nat → Bool} {s : Closers} (h : Closers.Steps cl .init s)
    (hc : s.crashed = false) (k : Nat) (hk : s.pc k ≠ .idle) :
    ∃ t, Closers.Steps cl s t ∧ t.pc k = .done := by
  have ending : ∀ s : Closers, s.crashed = false → s.pc k = .ending → ∃ t, Closers.Steps cl s t ∧ t.pc k = .done :=
    fun s hc hp => ⟨_, (Closers.Steps.refl s).step (.ret s k hc hp), by simp⟩
  have next : ∀ {s t : Closers}, Closers.Step cl s t → (∃ u, Closers.Steps cl t u ∧ u.pc k = .done) →
      ∃ u, Closers.Steps cl s u ∧ u.pc k = .done :=
    fun hs ⟨u, h1, h2⟩ => ⟨u, stepsTrans ((Closers.Steps.refl _).step hs) h1, h2⟩
  have waiting : ∀ s : Closers, Closers.Steps cl .init s → s.crashed = false → s.pc k = .waiting →
      ∃ t, Closers.Steps cl s t ∧ t.pc k = .done := by
    intro s h hc hp
    rcases Nat.lt_or_eq_of_le (got_le h k).1 with hlt | heq
    · exact next (.expire s k hc hp hlt) (ending _ hc (setAt_same ..))
    · exact next (.finish s k hc hp heq) (ending _ hc (setAt_same ..))
  have ranging : ∀ s : Closers, Closers.Steps cl .init s → s.crashed = false → s.pc k = .ranging →
      ∃ t, Closers.Steps cl s t ∧ t.pc k = .done := by
    intro s h hc hp
    obtain ⟨t, h1, h2, h3, h4, _, h6⟩ := ranges (cl := cl) k (s.start k) s hc hp (start_in h k)
    have hr := Closers.Step.ranged (cl := cl) t k h2 h3 (by rw [h4]; exact h6)
    obtain ⟨u, h7, h8⟩ := next hr (waiting _ ((stepsTrans h h1).step hr) h2 (setAt_same ..))
    exact ⟨u, stepsTrans h1 h7, h8⟩
  have counted : ∀ s : Closers, Closers.Steps cl .init s → s.crashed = false → s.pc k = .counted →
      ∃ t, Closers.Steps cl s t ∧ t.pc k = .done := fun s h hc hp =>
    next (.range s k hc hp) (ranging _ (h.step (.range s k hc hp)) hc (setAt_same ..))
  cases hp : s.pc k with
  | idle => exact absurd hp hk
  | locked =>
    cases hcl : s.closed with
    | true => exact next (.again s k hc hp hcl) ⟨_, .refl _, setAt_same ..⟩
    | false => exact next (.first s k hc hp hcl) (counted _ (h.step (.first s k hc hp hcl)) hc (setAt_same ..))
  | counted => exact counted s h hc hp
  | ranging => exact ranging s h hc hp
  | waiting => exact waiting s h hc hp
  | ending => exact ending s hc hp
  | done => exact ⟨s, .refl s, hp⟩

private theorem early1 : ∃ s, Closers.Steps (fun _ => false) .init s ∧ s.conns = [0] ∧ s.pc 0 = .idle ∧
    s.pending = [1] ∧ s.crashed = false ∧ s.mu = none ∧ s.shut = [] ∧ s.buf 0 = 0 ∧ s.got 0 = 0 ∧ s.timeout 0 = false ∧
    s.seen 0 = [] ∧ s.toClose 0 = [] ∧ s.toSend 0 = [] := by
  have a1 : Closers.Steps (fun _ => false) .init _ := (Closers.Steps.refl _).step (.accept _ rfl rfl)
  have a2 := a1.step (.track _ 0 rfl rfl (by decide))
  have a3 := a2.step (.accept _ rfl rfl)
  exact ⟨_, a3, rfl, rfl, rfl, rfl, rfl, rfl, rfl, rfl, rfl, rfl, rfl, rfl⟩

/-- C90 is false while a client connects: a call of `CloseClientConnections` returns, without the
timer, though a connection that was tracked before it is still open.  (The size of the map is read
first; the notification of the new connection is taken for one of the other.) -/
theorem closeClients_early_false : ∃ s t, Closers.Steps (fun _ => false) .init s ∧ s.conns = [0] ∧ s.pc 0 = .idle ∧
    Closers.Steps (fun _ => false) s t ∧ t.pc 0 = .done ∧ t.timeout 0 = false ∧ t.shut = [1] := by
  obtain ⟨s, h, h1, h2, h3, h4, h5, h6, h7, h8, h9, h10, h11, h12⟩ := early1
  have b1 := (Closers.Steps.refl s).step (.size (cl := fun _ => false) _ 0 h4 rfl h2)
  have b2 := b1.step (.track _ 1 h4 h5 (by simp [h3]))
  have b3 := b2.step (.range _ 0 h4 (by simp))
  have b4 := b3.step (.visit _ 0 1 h4 (by simp) (by simp) (by simp [h10]))
  have b5 := b4.step (.visit _ 0 0 h4 (by simp) (by simp [h1]) (by simp [h10]))
  have b6 := b5.step (.ranged _ 0 h4 (by simp) (by simp [h1]))
  have b7 := b6.step (.shut _ 0 1 h4 (by simp))
  have b8 := b7.step (.notify _ 0 1 h4 (by simp) (by simp [h1, h7]))
  have b9 := b8.step (.take _ 0 h4 (by simp) (by simp [h1, h8]) (by simp))
  have b10 := b9.step (.finish _ 0 h4 (by simp) (by simp [h1, h8]))
  have b11 := b10.step (.ret _ 0 h4 (by simp))
  exact ⟨s, _, h, h1, h2, b11, by simp, h9, by simp [h6]⟩

/-- C90.  And a goroutine is left behind for ever: a call that read the size 0 returns before the
connection that it then found is closed; the goroutine that closes it never ends, whatever happens
afterwards. -/
theorem closeClients_goroutine_false : ∃ t, Closers.Steps (fun _ => false) .init t ∧ t.pc 0 = .done ∧ t.timeout 0 = false ∧
    t.shut = [] ∧ t.toClose 0 = [0] ∧
    ∀ u, Closers.Steps (fun _ => false) t u → 0 ∈ u.toClose 0 ∨ 0 ∈ u.toSend 0 := by
  have b0 : Closers.Steps (fun _ => false) .init _ := (Closers.Steps.refl _).step (.accept _ rfl rfl)
  have b1 := b0.step (.size _ 0 rfl rfl rfl)
  have b2 := b1.step (.track _ 0 rfl rfl (by decide))
  have b3 := b2.step (.range _ 0 rfl rfl)
  have b4 := b3.step (.visit _ 0 0 rfl rfl (by decide) (by decide))
  have b5 := b4.step (.ranged _ 0 rfl rfl (by decide))
  have b6 := b5.step (.finish _ 0 rfl rfl rfl)
  have b7 := b6.step (.ret _ 0 rfl rfl)
  refine ⟨_, b7, rfl, rfl, rfl, rfl, fun u hu => ?_⟩
  have key : u.size 0 = 0 ∧ u.pc 0 = .done ∧ (0 ∈ u.toClose 0 ∨ 0 ∈ u.toSend 0) := by
    clear b0 b1 b2 b3 b4 b5 b6 b7
    induction hu with
    | refl => exact ⟨rfl, rfl, .inl (by decide)⟩
    | step _ hs ih =>
      obtain ⟨i1, i2, i3⟩ := ih
      cases hs <;> grind [setAt]
  exact key.2.2

/-- C90.  And the program may be stopped by the Go runtime: one client connects while
`CloseClientConnections` is called. -/
theorem closeClients_crash_false : ∃ s, Closers.Steps (fun _ => false) .init s ∧ s.crashed = true := by
  have b0 : Closers.Steps (fun _ => false) .init _ := (Closers.Steps.refl _).step (.accept _ rfl rfl)
  have b1 := b0.step (.size _ 0 rfl rfl rfl)
  have b2 := b1.step (.range _ 0 rfl rfl)
  exact ⟨_, b2.step (.crash _ 0 0 rfl rfl (by decide) rfl), rfl⟩

/-- C90.  With `Close` alone that does not happen: the lock keeps the callback out of the loop. -/
theorem closeClients_no_crash {s : Closers} (h : Closers.Steps (fun _ => true) .init s) : s.crashed = false := by
  induction h with
  | refl => rfl
  | step h' hs ih =>
    have hk := fun k => ((inv h').2 k).lock rfl
    cases hs <;> first | exact ih | grind

/-- The hypotheses of `closeClients_partial` are met by a call that closes a connection; and those of
`closeClients_close` by one of `Close` while another client waits to be tracked. -/
example : ∃ s t, Closers.Steps (fun _ => false) .init s ∧ Closers.Steps (fun _ => false) s t ∧ s.pc 0 = .idle ∧
    t.pc 0 = .done ∧ t.timeout 0 = false ∧ t.conns = s.conns ∧ s.conns = [0] := by
  obtain ⟨s, h, h1, h2, h3, h4, h5, h6, h7, h8, h9, h10, h11, h12⟩ := early1
  have b1 := (Closers.Steps.refl s).step (.size (cl := fun _ => false) _ 0 h4 rfl h2)
  have b3 := b1.step (.range _ 0 h4 (by simp))
  have b5 := b3.step (.visit _ 0 0 h4 (by simp) (by simp [h1]) (by simp [h10]))
  have b6 := b5.step (.ranged _ 0 h4 (by simp) (by simp [h1]))
  have b7 := b6.step (.shut _ 0 0 h4 (by simp))
  have b8 := b7.step (.notify _ 0 0 h4 (by simp) (by simp [h1, h7]))
  have b9 := b8.step (.take _ 0 h4 (by simp) (by simp [h1, h8]) (by simp))
  have b10 := b9.step (.finish _ 0 h4 (by simp) (by simp [h1, h8]))
  have b11 := b10.step (.ret _ 0 h4 (by simp))
  exact ⟨s, _, h, b11, h2, by simp, h9, rfl, h1⟩

example : ∃ s t, Closers.Steps (fun _ => true) .init s ∧ s.closed = false ∧ Closers.Steps (fun _ => true) s t ∧
    t.pc 0 = .done ∧ (∀ j, t.timeout j = false) ∧ s.conns = [0] ∧ t.pending = [1] := by
  have a1 : Closers.Steps (fun _ => true) .init _ := (Closers.Steps.refl _).step (.accept _ rfl rfl)
  have a2 := a1.step (.track _ 0 rfl rfl (by decide))
  obtain ⟨s, h, e⟩ : ∃ s, Closers.Steps (fun _ => true) .init s ∧ s = _ := ⟨_, a2, rfl⟩
  have b0 := (Closers.Steps.refl s).step (.accept (cl := fun _ => true) s (by rw [e]; rfl) (by rw [e]; rfl))
  rw [e] at b0
  have b1 := b0.step (.lock _ 0 rfl rfl rfl rfl)
  have b2 := b1.step (.first _ 0 rfl rfl rfl)
  have b3 := b2.step (.range _ 0 rfl rfl)
  have b4 := b3.step (.visit _ 0 0 rfl rfl (by decide) (by decide))
  have b5 := b4.step (.ranged _ 0 rfl rfl (by decide))
  have b6 := b5.step (.shut _ 0 0 rfl (by decide))
  have b7 := b6.step (.notify _ 0 0 rfl (by decide) (by decide))
  have b8 := b7.step (.take _ 0 rfl rfl (by decide) (by decide))
  have b9 := b8.step (.finish _ 0 rfl rfl rfl)
  have b10 := b9.step (.ret _ 0 rfl rfl)
  exact ⟨_, _, a2, rfl, b10, rfl, fun _ => rfl, rfl, rfl⟩

end Verif.Props
