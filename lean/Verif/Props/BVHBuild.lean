import Verif.Spec.BVH
import Mathlib.Data.Nat.Log
import Mathlib.Tactic.Linarith

/-! C18: BVH construction. -/

namespace Verif
open BVH

theorem BT.idx_mem (t : BT) : t.idx ∈ t.indices := by cases t <;> simp [idx, indices]

theorem modify_ok {st : SubTree} {i : ℕ} (h : i < st.size) (f : Node → Node) :
    st.modify i f = .ok { st with nodes := Function.update st.nodes i (f (st.nodes i)) } := by
  unfold SubTree.modify; rw [if_pos h]

/-- Storing a tree depends only on the slots of the tree. -/
theorem Stores.frame {st st' : SubTree} (t : BT) (hsz : st'.size = st.size)
    (h : ∀ i ∈ t.indices, (st'.nodes i).start = (st.nodes i).start ∧
      (st'.nodes i).end = (st.nodes i).end ∧
      (i ≠ t.idx → (st'.nodes i).parent = (st.nodes i).parent))
    (hnd : t.indices.Nodup) (hs : Stores st t) : Stores st' t := by
  induction t with
  | leaf i e =>
    obtain ⟨h0, h1, h2⟩ := hs
    obtain ⟨a, b, -⟩ := h i (by simp [BT.indices])
    exact ⟨hsz ▸ h0, by rw [a, h1], by rw [b, h2]⟩
  | node i l r ihl ihr =>
    obtain ⟨h0, h1, h2, h3, h4, h5, h6, h7, h8⟩ := hs
    simp only [BT.indices, List.nodup_cons, List.mem_append, not_or, List.nodup_append] at hnd
    obtain ⟨⟨hnl, hnr⟩, hdl, hdr, hdis⟩ := hnd
    obtain ⟨a, b, -⟩ := h i (by simp [BT.indices])
    have hl := l.idx_mem
    have hr := r.idx_mem
    have cl := h l.idx (by simp [BT.indices, hl])
    have cr := h r.idx (by simp [BT.indices, hr])
    have nl : l.idx ≠ i := fun e => hnl (e ▸ hl)
    have nr : r.idx ≠ i := fun e => hnr (e ▸ hr)
    refine ⟨hsz ▸ h0, by rw [a, h1], by rw [b, h2], h3, h4, ?_, ?_, ihl ?_ hdl h7, ihr ?_ hdr h8⟩
    · rw [cl.2.2 (by simpa [BT.idx] using nl), h5]
    · rw [cr.2.2 (by simpa [BT.idx] using nr), h6]
    · intro j hj
      have c := h j (by simp [BT.indices, hj])
      exact ⟨c.1, c.2.1, fun _ => c.2.2 (by simp [BT.idx]; intro e; subst e; exact hnl hj)⟩
    · intro j hj
      have c := h j (by simp [BT.indices, hj])
      exact ⟨c.1, c.2.1, fun _ => c.2.2 (by simp [BT.idx]; intro e; subst e; exact hnr hj)⟩

theorem make_sub_tree_spec (n : ℕ) : ∀ (parent free first last : ℕ) (st : SubTree),
    first ≤ last → last - first = n → parent < free → free + 2 * n ≤ st.size →
    ∃ st' h t, make_sub_tree parent free first last st = .ok ((h, free + 2 * n), st') ∧
      st'.size = st.size ∧
      (∀ i, i ≠ parent → (i < free ∨ free + 2 * n ≤ i) → st'.nodes i = st.nodes i) ∧
      (st'.nodes parent).parent = (st.nodes parent).parent ∧
      (∀ i, (st'.nodes i).volume = (st.nodes i).volume) ∧
      Stores st' t ∧ t.idx = parent ∧ t.indices.Nodup ∧
      (∀ i, i ∈ t.indices ↔ i = parent ∨ (free ≤ i ∧ i < free + 2 * n)) ∧
      t.leaves = List.range' first (n + 1) ∧ t.height = h ∧ h ≤ Nat.clog 2 (n + 1) := by
  induction n using Nat.strong_induction_on with
  | _ n ih =>
    intro parent free first last st hfl hn hpf hsz
    rw [make_sub_tree]
    by_cases hlt : first < last
    · rw [if_pos hlt]
      have hn1 : 1 ≤ n := by omega
      -- the four assignments
      have hm1 : parent < st.size := by omega
      simp only [bind, Except.bind]
      rw [modify_ok hm1]
      simp only
      rw [modify_ok (by simpa using hm1)]
      simp only
      rw [modify_ok (i := free) (by simp; omega)]
      simp only
      rw [modify_ok (i := free + 1) (by simp; omega)]
      simp only
      generalize hst1 : (SubTree.mk st.size (Function.update _ (free + 1) _) st.height) = st1
      replace hst1 := hst1.symm
      -- description of the state after the assignments
      have d_size : st1.size = st.size := by rw [hst1]
      have q1 : free ≠ parent := by omega
      have q2 : free + 1 ≠ parent := by omega
      have q3 : free ≠ free + 1 := by omega
      have d_parent : st1.nodes parent = { (st.nodes parent) with start := (free : ℤ), «end» := ((free + 1 : ℕ) : ℤ) } := by
        simp [hst1, Function.update_apply, q1.symm, q2.symm]
      have d_left : st1.nodes free = { (st.nodes free) with parent := (parent : ℤ) } := by
        simp [hst1, Function.update_apply, q1]
      have d_right : st1.nodes (free + 1) = { (st.nodes (free + 1)) with parent := (parent : ℤ) } := by
        simp [hst1, Function.update_apply, q2]
      have d_other : ∀ i, i ≠ parent → i ≠ free → i ≠ free + 1 → st1.nodes i = st.nodes i := by
        intro i h1 h2 h3
        simp [hst1, Function.update_apply, h1, h2, h3]
      have d_vol : ∀ i, (st1.nodes i).volume = (st.nodes i).volume := by
        intro i
        by_cases h1 : i = parent
        · subst h1; rw [d_parent]
        · by_cases h2 : i = free
          · subst h2; rw [d_left]
          · by_cases h3 : i = free + 1
            · subst h3; rw [d_right]
            · rw [d_other i h1 h2 h3]
      clear hst1
      -- recursion
      set mid := (first + last) / 2 with hmid
      have hm_lo : first ≤ mid := by omega
      have hm_hi : mid < last := by omega
      obtain ⟨st2, hl, tl, e2, s2, f2, p2, v2, r2, i2, nd2, m2, l2, h2, b2⟩ :=
        ih (mid - first) (by omega) free (free + 2) first mid st1 hm_lo rfl (by omega) (by rw [d_size]; omega)
      rw [e2]
      simp only
      obtain ⟨st3, hr, tr, e3, s3, f3, p3, v3, r3, i3, nd3, m3, l3, h3, b3⟩ :=
        ih (last - (mid + 1)) (by omega) (free + 1) (free + 2 + 2 * (mid - first)) (mid + 1) last st2
          (by omega) rfl (by omega) (by rw [s2, d_size]; omega)
      rw [e3]
      simp only
      have hfree : free + 2 + 2 * (mid - first) + 2 * (last - (mid + 1)) = free + 2 * n := by omega
      refine ⟨st3, max hl hr + 1, .node parent tl tr, ?_, by rw [s3, s2, d_size], ?_, ?_, ?_, ?_, rfl, ?_, ?_, ?_, ?_, ?_⟩
      · rw [hfree]
      · intro i hip hi
        rw [f3 i (by omega) (by omega), f2 i (by omega) (by omega), d_other i hip (by omega) (by omega)]
      · rw [f3 parent (by omega) (by omega), f2 parent (by omega) (by omega), d_parent]
      · intro i; rw [v3, v2, d_vol]
      · have hpn : st3.nodes parent = st1.nodes parent := by
          rw [f3 parent (by omega) (by omega), f2 parent (by omega) (by omega)]
        refine ⟨by rw [s3, s2, d_size]; omega, ?_, ?_, by rw [i2, i3], by rw [i2]; omega, ?_, ?_, ?_, r3⟩
        · rw [hpn, d_parent, i2]
        · rw [hpn, d_parent, i3]
        · rw [i2, f3 free (by omega) (by omega), p2, d_left]
        · rw [i3, p3, f2 (free + 1) (by omega) (by omega), d_right]
        · refine Stores.frame tl s3 ?_ nd2 r2
          intro j hj
          have := (m2 j).mp hj
          rw [f3 j (by omega) (by omega)]
          exact ⟨rfl, rfl, fun _ => rfl⟩
      · simp only [BT.indices, List.nodup_cons, List.mem_append, List.nodup_append]
        refine ⟨?_, nd2, nd3, ?_⟩
        · rintro (h | h)
          · have := (m2 _).mp h; omega
          · have := (m3 _).mp h; omega
        · intro a ha b hb hab
          have h1 := (m2 _).mp ha
          have h2 := (m3 _).mp hb
          omega
      · intro i
        simp only [BT.indices, List.mem_cons, List.mem_append, m2, m3]
        omega
      · simp only [BT.leaves, l2, l3]
        have e1 : mid + 1 = first + 1 * (mid - first + 1) := by omega
        rw [e1, List.range'_append]
        congr 1
        omega
      · simp [BT.height, h2, h3]
      · have hc : Nat.clog 2 (n + 1) = Nat.clog 2 ((n + 1 + 2 - 1) / 2) + 1 :=
          Nat.clog_of_two_le (by omega) (by omega)
        rw [hc]
        have ml : Nat.clog 2 (mid - first + 1) ≤ Nat.clog 2 ((n + 1 + 2 - 1) / 2) :=
          Nat.clog_mono_right 2 (by omega)
        have mr : Nat.clog 2 (last - (mid + 1) + 1) ≤ Nat.clog 2 ((n + 1 + 2 - 1) / 2) :=
          Nat.clog_mono_right 2 (by omega)
        have : max hl hr ≤ Nat.clog 2 ((n + 1 + 2 - 1) / 2) := max_le (b2.trans ml) (b3.trans mr)
        omega
    · rw [if_neg hlt]
      have hn0 : n = 0 := by omega
      subst hn0
      have hm1 : parent < st.size := by omega
      rw [modify_ok hm1]
      simp only [bind, Except.bind]
      rw [modify_ok (by simpa using hm1)]
      simp only
      refine ⟨_, 0, .leaf parent first, rfl, rfl, ?_, ?_, ?_, ?_, rfl, by simp [BT.indices], ?_, ?_, rfl, by simp⟩
      · intro i hi _
        simp only [Function.update_apply]
        rw [if_neg hi, if_neg hi]
      · simp
      · intro i
        simp only [Function.update_apply]
        split_ifs with h <;> simp [h]
      · refine ⟨hm1, ?_, ?_⟩ <;> simp
      · intro i; simp [BT.indices]
      · simp [BT.leaves]

theorem make_chunk_spec (N L M c : ℕ) (hL : L = (N + 1) / 2) (hL0 : L ≠ 0) (hc : c * L < M) :
    ∃ st t, make_chunk N L M c = .ok st ∧ ChunkOK st t ∧ st.size = N ∧
      t.leaves = List.range' (c * L) (min L (M - c * L)) ∧ t.height = st.height.1 ∧
      t.height ≤ Nat.clog 2 t.leaves.length ∧ st.height.2 = t.indices.length ∧
      (∀ i, (st.nodes i).volume = none) := by
  unfold make_chunk
  have hlen : min (c * L + L - 1) (M - 1) - c * L + 1 = min L (M - c * L) := by omega
  obtain ⟨st', h, t, e, s, f, p, v, r, i, nd, m, l, hh, b⟩ :=
    make_sub_tree_spec (min (c * L + L - 1) (M - 1) - c * L) 0 1 (c * L)
      (min (c * L + L - 1) (M - 1)) (SubTree.init N) (by omega) rfl (by omega)
      (by simp [SubTree.init]; omega)
  simp only [e, bind, Except.bind]
  refine ⟨_, t, rfl, ⟨?_, i, ?_, nd, ?_⟩, s, ?_, hh, ?_, ?_, v⟩
  · refine Stores.frame t (st := st') rfl ?_ nd r
    intro j _; exact ⟨rfl, rfl, fun _ => rfl⟩
  · simpa [SubTree.init, Node.init] using p
  · intro j hj
    have : ¬ (j = 0 ∨ _) := fun hx => hj ((m j).mpr hx)
    push Not at this
    simp only
    rw [f j this.1 (by omega)]
    simp [SubTree.init, Node.init, is_undefined]
  · rw [l, hlen]
  · rw [hh, l, List.length_range']; exact b
  · simp only
    have hperm : t.indices.Perm (List.range (1 + 2 * (min (c * L + L - 1) (M - 1) - c * L))) := by
      apply (List.perm_ext_iff_of_nodup nd List.nodup_range).mpr
      intro j
      rw [m, List.mem_range]
      omega
    rw [hperm.length_eq, List.length_range]

theorem mapM_except {α β : Type*} {f : α → Except PyErr β} {L : List α} {P : α → β → Prop}
    (h : ∀ a ∈ L, ∃ b, f a = .ok b ∧ P a b) : ∃ R, L.mapM f = .ok R ∧ List.Forall₂ P L R := by
  induction L with
  | nil => exact ⟨[], rfl, .nil⟩
  | cons a L ih =>
    obtain ⟨b, hb, hP⟩ := h a (by simp)
    obtain ⟨R, hR, hF⟩ := ih (fun x hx => h x (by simp [hx]))
    refine ⟨b :: R, ?_, .cons hP hF⟩
    rw [List.mapM_cons, hb, hR]; rfl

/-- consecutive chunks of size L cover 0..M-1 -/
theorem chunk_cover (L M : ℕ) (hL : L ≠ 0) (C : ℕ) (hC : C = (M + L - 1) / L) :
    ((List.range C).flatMap fun c => List.range' (c * L) (min L (M - c * L))) = List.range M := by
  have hLpos : 0 < L := Nat.pos_of_ne_zero hL
  have key : ∀ c, c ≤ C → ((List.range c).flatMap fun c => List.range' (c * L) (min L (M - c * L)))
      = List.range (min (c * L) M) := by
    intro c
    induction c with
    | zero => simp
    | succ c ih =>
      intro hc
      rw [List.range_succ, List.flatMap_append, ih (by omega)]
      have hcM : c * L < M := by
        have h1 : c * L + L ≤ C * L := by
          calc c * L + L = (c + 1) * L := by ring
            _ ≤ C * L := Nat.mul_le_mul_right _ hc
        have h2 : C * L ≤ M + L - 1 := by rw [hC]; exact Nat.div_mul_le_self _ _
        omega
      simp only [List.flatMap_cons, List.flatMap_nil, List.append_nil]
      rw [min_eq_left hcM.le, List.range_eq_range', List.range_eq_range']
      have e : c * L = 0 + 1 * (c * L) := by ring
      conv_lhs => rw [show List.range' (c * L) (min L (M - c * L)) = List.range' (0 + 1 * (c * L)) (min L (M - c * L)) by rw [← e]]
      rw [List.range'_append]
      congr 1
      have : (c + 1) * L = c * L + L := by ring
      rw [this]; omega
  rw [key C (le_refl _)]
  congr 1
  have : M ≤ C * L := by
    rw [hC]
    have := Nat.lt_div_mul_add hLpos (a := M + L - 1)
    omega
  omega

/-- the structural part: what `make_bvh` hands to `refit_bvh` -/
theorem make_chunks_spec (N M : ℕ) (hN : 1 ≤ N) :
    ∃ chunks trees, (List.range ((M + (N + 1) / 2 - 1) / ((N + 1) / 2))).mapM (make_chunk N ((N + 1) / 2) M) = .ok chunks ∧
      List.Forall₂ (fun st t => ChunkOK st t ∧ st.size = N ∧
        t.height ≤ Nat.clog 2 t.leaves.length ∧ st.height = (t.height, t.indices.length) ∧
        t.leaves.length ≤ (N + 1) / 2) chunks trees ∧
      trees.flatMap BT.leaves = List.range M := by
  set L := (N + 1) / 2 with hL
  have hL0 : L ≠ 0 := by omega
  have hLpos : 0 < L := Nat.pos_of_ne_zero hL0
  set C := (M + L - 1) / L with hC
  have hcM : ∀ c ∈ List.range C, c * L < M := by
    intro c hc
    rw [List.mem_range] at hc
    have h1 : (c + 1) * L ≤ C * L := Nat.mul_le_mul_right _ hc
    have h2 : C * L ≤ M + L - 1 := Nat.div_mul_le_self _ _
    have : (c + 1) * L = c * L + L := by ring
    omega
  obtain ⟨chunks, hch, hF⟩ := mapM_except (f := make_chunk N L M) (L := List.range C)
    (P := fun c st => ∃ t, (ChunkOK st t ∧ st.size = N ∧
        t.height ≤ Nat.clog 2 t.leaves.length ∧ st.height = (t.height, t.indices.length) ∧
        t.leaves.length ≤ L) ∧ t.leaves = List.range' (c * L) (min L (M - c * L))) (by
      intro c hc
      obtain ⟨st, t, h1, h2, h3, h4, h5, h6, h7, -⟩ := make_chunk_spec N L M c hL hL0 (hcM c hc)
      refine ⟨st, h1, t, ⟨h2, h3, h6, Prod.ext h5.symm h7, ?_⟩, h4⟩
      rw [h4, List.length_range']; omega)
  have : ∃ trees, List.Forall₂ (fun st t => ChunkOK st t ∧ st.size = N ∧
        t.height ≤ Nat.clog 2 t.leaves.length ∧ st.height = (t.height, t.indices.length) ∧
        t.leaves.length ≤ L) chunks trees ∧
      trees.flatMap BT.leaves = (List.range C).flatMap fun c => List.range' (c * L) (min L (M - c * L)) := by
    clear hch hcM
    generalize List.range C = cs at hF
    induction hF with
    | nil => exact ⟨[], .nil, rfl⟩
    | cons h _ ih =>
      obtain ⟨trees, h1, h2⟩ := ih
      obtain ⟨t, ht, hl⟩ := h
      exact ⟨t :: trees, .cons ht h1, by simp [h2, hl]⟩
  obtain ⟨trees, h1, h2⟩ := this
  refine ⟨chunks, trees, hch, h1, ?_⟩
  rw [h2, chunk_cover L M hL0 C rfl]

end Verif
