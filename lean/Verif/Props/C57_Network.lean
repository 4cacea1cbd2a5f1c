import Verif.Proofs.CycleLemmas

/-! # C57: a converged cycle conserves mass and energy

For every cycle whose elements keep accounts: any number of elements of any kind, joined in any way (branches,
merging streams, bleeds that overtake the main stream, loops). -/

namespace PyCycle.OM

namespace Cycle

variable {c : Cycle} {acc : String → Account}

/-- **C57 (mass, any links).** In a converged cycle the flow leaving through outlets that hand it to no element is the
flow entering through inlets that are fed by none, plus what the elements take from outside, plus what is made up by
linking an outlet to several inlets: each link after the first repeats the flow of the outlet. -/
theorem C57_mass_any (N : c.Network acc) {E : Env} (hc : c.group.Converged E)
    (hok : ∀ m ∈ c.members, (acc m.name).ok (c.view E m)) :
    ((c.openOutlets acc Link.carriesMass).map fun q => (c.view E q.1).W q.2).sum
      = ((c.openInlets acc Link.carriesMass).map fun q => (c.view E q.1).W q.2).sum
        + (c.members.map fun m => (acc m.name).mass (c.view E m)).sum
        + (((c.outlets acc).filter (c.feeds Link.carriesMass)).map fun q =>
            ((c.copies Link.carriesMass q : ℝ) - 1) * (c.view E q.1).W q.2).sum := by
  refine network_excess N _ _ _ ?_ ?_
  · intro m hm
    obtain ⟨V, hV, hs⟩ := nested hc hm
    have ha := N.accounts m hm
    obtain ⟨e1, -, e3⟩ := ha.seen (c.view E m) V fun n hn => ⟨(hs n hn).1.symm, (hs n hn).2.symm⟩
    have hb := ha.mass V hV (e3 (hok m hm))
    simp only [Account.MassBalance] at hb
    rw [e1, ← List.map_congr_left (fun p hp => (seen_W N hm hs (Or.inr hp)).1),
      ← List.map_congr_left (fun p hp => (seen_W N hm hs (Or.inl hp)).1)]
    exact hb
  · intro l hl hk m hm m' hm' e e' hp hp'
    exact link_W N hl hm hm' e e' hp hp' hk

theorem excess_zero {k : Link → Bool} (one : ((c.links.filter k).map Link.src).Nodup) (f : Member × String → ℝ) :
    (((c.outlets acc).filter (c.feeds k)).map fun q => ((c.copies k q : ℝ) - 1) * f q).sum = 0 := by
  refine List.sum_eq_zero fun x hx => ?_
  obtain ⟨q, hq, rfl⟩ := List.mem_map.mp hx
  have hf := (List.mem_filter.mp hq).2
  simp only [feeds, List.any_eq_true, Bool.and_eq_true, beq_iff_eq] at hf
  obtain ⟨l, hlm, hkl, e⟩ := hf
  have : c.copies k q = 1 :=
    List.count_eq_one_of_mem one (by rw [← e]; exact List.mem_map_of_mem (List.mem_filter.mpr ⟨hlm, hkl⟩))
  rw [this]; simp

/-- **C57 (mass).** In a converged cycle in which no outlet hands its flow to two inlets, the flow leaving through
outlets that hand it to no element is the flow entering through inlets that are fed by none, plus what the elements
take from outside. -/
theorem C57_mass (N : c.Network acc) {E : Env} (hc : c.group.Converged E)
    (one : ((c.links.filter Link.carriesMass).map Link.src).Nodup)
    (hok : ∀ m ∈ c.members, (acc m.name).ok (c.view E m)) :
    ((c.openOutlets acc Link.carriesMass).map fun q => (c.view E q.1).W q.2).sum
      = ((c.openInlets acc Link.carriesMass).map fun q => (c.view E q.1).W q.2).sum
        + (c.members.map fun m => (acc m.name).mass (c.view E m)).sum := by
  rw [C57_mass_any N hc hok, excess_zero one, add_zero]

/-- **C57 (states).** If links join ports of the same gas, and the inlets whose totals come from no element see states of
their gas, then every port of the cycle sees a state of its gas. -/
theorem C57_states (N : c.Network acc) {E : Env} (hc : c.group.Converged E)
    (hgas : ∀ l ∈ c.links, l.tot = true → (acc l.tgt.1).gas l.tgt.2 = (acc l.src.1).gas l.src.2)
    (hin : ∀ q ∈ c.openInlets acc Link.tot, (acc q.1.name).IsState (c.view E q.1) q.2) :
    (∀ q ∈ c.outlets acc, (acc q.1.name).IsState (c.view E q.1) q.2)
    ∧ ∀ q ∈ c.inlets acc, (acc q.1.name).IsState (c.view E q.1) q.2 := by
  have hout : ∀ m ∈ c.members, ∀ p ∈ (acc m.name).outs, (acc m.name).IsState (c.view E m) p := by
    intro m hm p hp
    obtain ⟨V, hV, hs⟩ := nested hc hm
    exact seen_state N hm hs (Or.inr hp) ((N.accounts m hm).states V hV p hp)
  constructor
  · intro q hq
    obtain ⟨m, hm, hq⟩ := List.mem_flatMap.mp hq
    obtain ⟨p, hp, rfl⟩ := List.mem_map.mp hq
    exact hout m hm p hp
  · intro q hq
    by_cases hf : c.fed Link.tot q = true
    · obtain ⟨m', hm', hq'⟩ := List.mem_flatMap.mp hq
      obtain ⟨p, hp, rfl⟩ := List.mem_map.mp hq'
      obtain ⟨l, hl, hk⟩ := List.any_eq_true.mp hf
      simp only [Bool.and_eq_true, beq_iff_eq] at hk
      obtain ⟨ht, e⟩ := hk
      obtain ⟨⟨m, hm, e1, hp1⟩, -⟩ := N.linked l hl
      have hg := hgas l hl ht
      rw [e] at hg
      have e1' : l.tgt.1 = m'.name := by rw [e]
      have e2' : l.tgt.2 = p := by rw [e]
      rw [← e1] at hg
      have := link_state N (E := E) hl hm hm' e1 e1'.symm hp1 (by rw [e2']; exact hp) ht
        (by rw [e2']; exact hg) (hout m hm _ hp1)
      rwa [e2'] at this
    · exact hin q (List.mem_filter.mpr ⟨hq, by simpa using hf⟩)

/-- **C57 (energy, any links).** The same for energy (mass flow times total enthalpy). -/
theorem C57_energy_any (N : c.Network acc) {E : Env} (hc : c.group.Converged E)
    (hok : ∀ m ∈ c.members, (acc m.name).ok (c.view E m))
    (hgas : ∀ l ∈ c.links, l.tot = true → (acc l.tgt.1).gas l.tgt.2 = (acc l.src.1).gas l.src.2)
    (hin : ∀ q ∈ c.openInlets acc Link.tot, (acc q.1.name).IsState (c.view E q.1) q.2) :
    ((c.openOutlets acc Link.carriesEnergy).map fun q => (c.view E q.1).H q.2).sum
      = ((c.openInlets acc Link.carriesEnergy).map fun q => (c.view E q.1).H q.2).sum
        + (c.members.map fun m => (acc m.name).heat (c.view E m)).sum
        + (((c.outlets acc).filter (c.feeds Link.carriesEnergy)).map fun q =>
            ((c.copies Link.carriesEnergy q : ℝ) - 1) * (c.view E q.1).H q.2).sum := by
  have hst := (C57_states N hc hgas hin).2
  refine network_excess N _ _ _ ?_ ?_
  · intro m hm
    obtain ⟨V, hV, hs⟩ := nested hc hm
    have ha := N.accounts m hm
    have hs' : ∀ n, n ∈ m.group.wiring.externals ∨ n ∈ m.group.wiring.outs →
        (c.view E m).num n = V.num n ∧ (c.view E m).vec n = V.vec n := fun n hn => ⟨(hs n hn).1.symm, (hs n hn).2.symm⟩
    obtain ⟨-, e2, e3⟩ := ha.seen (c.view E m) V hs'
    have hb := ha.energy V hV (e3 (hok m hm)) fun p hp => seen_state N hm hs' (Or.inl hp)
      (hst (m, p) (List.mem_flatMap.mpr ⟨m, hm, List.mem_map_of_mem hp⟩))
    simp only [Account.EnergyBalance] at hb
    rw [e2, ← List.map_congr_left (fun p hp => (seen_W N hm hs (Or.inr hp)).2),
      ← List.map_congr_left (fun p hp => (seen_W N hm hs (Or.inl hp)).2)]
    exact hb
  · intro l hl hk m hm m' hm' e e' hp hp'
    simp only [Link.carriesEnergy, Bool.and_eq_true] at hk
    have h1 := link_W N (E := E) hl hm hm' e e' hp hp' hk.1
    have h2 := link_h N (E := E) hl hm hm' e e' hp hp' hk.2
    simp only [Env.W] at h1
    simp only [Env.H, h1, h2]

/-- **C57 (energy).** Under the same circumstances energy (mass flow times total enthalpy) is conserved: what leaves the
network is what enters it plus what the elements take from outside (fuel, heat, shaft work). -/
theorem C57_energy (N : c.Network acc) {E : Env} (hc : c.group.Converged E)
    (one : ((c.links.filter Link.carriesEnergy).map Link.src).Nodup)
    (hok : ∀ m ∈ c.members, (acc m.name).ok (c.view E m))
    (hgas : ∀ l ∈ c.links, l.tot = true → (acc l.tgt.1).gas l.tgt.2 = (acc l.src.1).gas l.src.2)
    (hin : ∀ q ∈ c.openInlets acc Link.tot, (acc q.1.name).IsState (c.view E q.1) q.2) :
    ((c.openOutlets acc Link.carriesEnergy).map fun q => (c.view E q.1).H q.2).sum
      = ((c.openInlets acc Link.carriesEnergy).map fun q => (c.view E q.1).H q.2).sum
        + (c.members.map fun m => (acc m.name).heat (c.view E m)).sum := by
  rw [C57_energy_any N hc hok hgas hin, excess_zero one, add_zero]

end Cycle

end PyCycle.OM
