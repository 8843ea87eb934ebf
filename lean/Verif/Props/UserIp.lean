import Verif.Model.UserIp

/-! # C46: per-user addresses -/

namespace Verif.Props
open Verif.Model

/-! ## Specification -/

/-- The number an address stands for. -/
def addrVal : List Byte → Nat
  | [] => 0
  | b :: bs => b * 256 ^ bs.length + addrVal bs

/-- The network is `base/bits` in CIDR notation, of IPv4 (4 bytes) or IPv6 (16 bytes, not an IPv4 address in
disguise). -/
def Cidr (n : IpNet) (bits : Nat) : Prop :=
  ((n.ip.length = 4) ∨ (n.ip.length = 16 ∧ n.ip.take 12 ≠ [0, 0, 0, 0, 0, 0, 0, 0, 0, 0, 255, 255])) ∧
  (∀ b ∈ n.ip, b < 256) ∧ bits ≤ 8 * n.ip.length ∧ n.mask = cidrMask bits n.ip.length

/-- The address is in the network: same kind of address, and the first `bits` bits are those of the network. -/
def InNet (n : IpNet) (bits : Nat) (ip : List Byte) : Prop :=
  ip.length = n.ip.length ∧ addrVal ip / 2 ^ (8 * n.ip.length - bits) = addrVal n.ip / 2 ^ (8 * n.ip.length - bits)

/-! ## Proofs -/

private theorem addrVal_snoc (bs : List Byte) (b : Byte) : addrVal (bs ++ [b]) = addrVal bs * 256 + b := by
  induction bs with
  | nil => simp [addrVal]
  | cons c bs ih =>
    rw [List.cons_append, addrVal, addrVal, ih, List.length_append, List.length_singleton, Nat.pow_succ]
    rw [Nat.add_mul, Nat.mul_assoc, Nat.add_assoc]

private theorem natOfBytes_foldl (bs : List Byte) : ∀ a, bs.foldl (fun a b => a * 256 + b) a = a * 256 ^ bs.length + addrVal bs := by
  induction bs with
  | nil => intro a; simp [addrVal]
  | cons c bs ih =>
    intro a
    rw [List.foldl_cons, ih, addrVal, List.length_cons, Nat.pow_succ, Nat.add_mul, Nat.mul_assoc, Nat.add_assoc,
      Nat.mul_comm 256]

private theorem natOfBytes_eq (bs : List Byte) : natOfBytes bs = addrVal bs := by
  unfold natOfBytes; rw [natOfBytes_foldl]; simp

private theorem bytesAux_val : ∀ f n, n ≤ f → addrVal (bytesAux f n) = n := by
  intro f
  induction f with
  | zero => intro n h; have : n = 0 := by omega
            subst this; rfl
  | succ f ih =>
    intro n h
    unfold bytesAux
    split
    · rename_i h0; subst h0; rfl
    · rw [addrVal_snoc, ih (n / 256) (by omega)]; omega

private theorem bytesOfNat_val (n : Nat) : addrVal (bytesOfNat n) = n := bytesAux_val n n (Nat.le_refl n)

private theorem bytesAux_lt : ∀ f n, ∀ b ∈ bytesAux f n, b < 256 := by
  intro f
  induction f with
  | zero => intro n b hb; cases hb
  | succ f ih =>
    intro n b hb
    unfold bytesAux at hb
    split at hb
    · cases hb
    · rcases List.mem_append.1 hb with hb | hb
      · exact ih _ b hb
      · simp only [List.mem_singleton] at hb; omega

private theorem addrVal_lt (bs : List Byte) (h : ∀ b ∈ bs, b < 256) : addrVal bs < 256 ^ bs.length := by
  induction bs with
  | nil => simp [addrVal]
  | cons c bs ih =>
    have hc := h c (by simp)
    have := ih (fun b hb => h b (by simp [hb]))
    rw [addrVal, List.length_cons, Nat.pow_succ]
    have h2 : (c + 1) * 256 ^ bs.length ≤ 256 * 256 ^ bs.length := Nat.mul_le_mul_right _ hc
    rw [Nat.add_mul, Nat.one_mul] at h2
    rw [Nat.mul_comm (256 ^ bs.length)]
    omega

private theorem addrVal_inj : ∀ (a b : List Byte), a.length = b.length → (∀ x ∈ a, x < 256) → (∀ x ∈ b, x < 256) →
    addrVal a = addrVal b → a = b := by
  intro a
  induction a with
  | nil => intro b hl _ _ _; cases b with
    | nil => rfl
    | cons _ _ => simp at hl
  | cons x a ih =>
    intro b hl ha hb h
    cases b with
    | nil => simp at hl
    | cons y b =>
      simp only [List.length_cons, Nat.add_right_cancel_iff] at hl
      rw [addrVal, addrVal, hl] at h
      have l1 := addrVal_lt a (fun z hz => ha z (by simp [hz]))
      have l2 := addrVal_lt b (fun z hz => hb z (by simp [hz]))
      rw [hl] at l1
      have hx : x = y := by
        have e1 : (x * 256 ^ b.length + addrVal a) / 256 ^ b.length = x := by
          rw [Nat.mul_comm, Nat.mul_add_div (by exact Nat.pos_of_ne_zero (by simp)), Nat.div_eq_of_lt l1]; simp
        have e2 : (y * 256 ^ b.length + addrVal b) / 256 ^ b.length = y := by
          rw [Nat.mul_comm, Nat.mul_add_div (by exact Nat.pos_of_ne_zero (by simp)), Nat.div_eq_of_lt l2]; simp
        rw [← e1, h, e2]
      subst hx
      rw [ih b hl (fun z hz => ha z (by simp [hz])) (fun z hz => hb z (by simp [hz])) (by omega)]

/-- Bytes of a number of a known size. -/
private theorem bytesOfNat_size (n : Nat) (bs : List Byte) (hb : ∀ b ∈ bs, b < 256) (hn : addrVal bs = n)
    (h0 : ∀ c r, bs = c :: r → c ≠ 0) : bytesOfNat n = bs := by
  have key : ∀ (l : Nat) (bs : List Byte), bs.length = l → (∀ b ∈ bs, b < 256) → (∀ c r, bs = c :: r → c ≠ 0) →
      ∀ f, addrVal bs ≤ f → bytesAux f (addrVal bs) = bs := by
    intro l
    induction l with
    | zero =>
      intro bs hl _ _ f _
      have : bs = [] := List.length_eq_zero_iff.1 hl
      subst this
      cases f <;> rfl
    | succ l ih =>
      intro bs hl hb h0 f hf
      have hne : bs ≠ [] := by intro e; subst e; simp at hl
      have hsplit := List.dropLast_concat_getLast hne
      generalize hx : bs.getLast hne = x at hsplit
      generalize hd : bs.dropLast = d at hsplit
      subst hsplit
      rw [addrVal_snoc] at hf ⊢
      have hxlt : x < 256 := hb x (by simp)
      have hpos : addrVal d * 256 + x ≠ 0 := by
        intro e
        cases d with
        | nil => exact h0 x [] rfl (by omega)
        | cons c d =>
          have hc := h0 c (d ++ [x]) rfl
          rw [addrVal] at e
          have : c * 256 ^ d.length ≠ 0 := Nat.mul_ne_zero hc (by simp)
          omega
      cases f with
      | zero => omega
      | succ f =>
        unfold bytesAux
        rw [if_neg hpos]
        have e1 : (addrVal d * 256 + x) / 256 = addrVal d := by omega
        have e2 : (addrVal d * 256 + x) % 256 = x := by omega
        rw [e1, e2, ih d (by simpa using hl) (fun b hb' => hb b (by simp [hb'])) (by
          intro c r e
          exact h0 c (r ++ [x]) (by rw [e]; rfl)) f (by omega)]
  unfold bytesOfNat
  rw [← hn]
  exact key bs.length bs rfl hb h0 _ (Nat.le_refl _)

private theorem mask_byte : ∀ k, k < 8 → ∀ x, x < 256 →
    x &&& (256 - 2 ^ (8 - k)) = (x / 2 ^ (8 - k)) * 2 ^ (8 - k) := by decide +kernel

private theorem mask_full : ∀ x, x < 256 → x &&& 255 = x := by decide +kernel

private theorem agree_zero : ∀ (l : Nat) (a b : List Byte), agreeMask a b (cidrMask 0 l) = true := by
  intro l
  induction l with
  | zero => intro a b; cases a <;> cases b <;> rfl
  | succ l ih =>
    intro a b
    unfold cidrMask
    rw [if_neg (by omega)]
    cases a <;> cases b <;> simp [agreeMask, ih]

private theorem div_step (x l v k : Nat) (hk : k ≤ 8 * l) :
    (x * 256 ^ l + v) / 2 ^ k = x * 2 ^ (8 * l - k) + v / 2 ^ k := by
  have e : 256 ^ l = 2 ^ k * 2 ^ (8 * l - k) := by
    rw [← Nat.pow_add, show k + (8 * l - k) = 8 * l by omega, Nat.pow_mul]
  rw [e, show x * (2 ^ k * 2 ^ (8 * l - k)) = 2 ^ k * (x * 2 ^ (8 * l - k)) by
    rw [← Nat.mul_assoc, Nat.mul_comm x, Nat.mul_assoc], Nat.mul_add_div (Nat.two_pow_pos k)]

theorem agree_iff : ∀ (a b : List Byte) (bits : Nat), a.length = b.length → bits ≤ 8 * a.length →
    (∀ x ∈ a, x < 256) → (∀ x ∈ b, x < 256) →
    (agreeMask a b (cidrMask bits a.length) = true ↔
      addrVal b / 2 ^ (8 * a.length - bits) = addrVal a / 2 ^ (8 * a.length - bits)) := by
  intro a
  induction a with
  | nil =>
    intro b bits hl _ _ _
    have : b = [] := List.length_eq_zero_iff.1 hl.symm
    subst this
    simp [agreeMask, addrVal]
  | cons x a ih =>
    intro b bits hl hbits ha hb
    cases b with
    | nil => simp at hl
    | cons y b =>
      simp only [List.length_cons, Nat.add_right_cancel_iff] at hl
      have hx := ha x (by simp)
      have hy := hb y (by simp)
      have la := addrVal_lt a (fun z hz => ha z (by simp [hz]))
      have lb := addrVal_lt b (fun z hz => hb z (by simp [hz]))
      rw [List.length_cons] at hbits
      rw [addrVal, addrVal, List.length_cons, ← hl]
      rw [← hl] at lb
      unfold cidrMask
      split
      · rename_i h8
        have ih' := ih b (bits - 8) hl (by omega) (fun z hz => ha z (by simp [hz])) (fun z hz => hb z (by simp [hz]))
        simp only [agreeMask, Bool.and_eq_true, decide_eq_true_eq]
        rw [mask_full x hx, mask_full y hy, ih']
        have ek : 8 * (a.length + 1) - bits = 8 * a.length - (bits - 8) := by omega
        rw [ek]
        generalize hk : 8 * a.length - (bits - 8) = k
        have hkl : k ≤ 8 * a.length := by omega
        rw [div_step y a.length (addrVal b) k hkl, div_step x a.length (addrVal a) k hkl]
        have e256 : 256 ^ a.length = 2 ^ (8 * a.length - k) * 2 ^ k := by
          rw [← Nat.pow_add, show 8 * a.length - k + k = 8 * a.length by omega, Nat.pow_mul]
        have qa : addrVal a / 2 ^ k < 2 ^ (8 * a.length - k) := by
          rw [Nat.div_lt_iff_lt_mul (Nat.two_pow_pos k), ← e256]; exact la
        have qb : addrVal b / 2 ^ k < 2 ^ (8 * a.length - k) := by
          rw [Nat.div_lt_iff_lt_mul (Nat.two_pow_pos k), ← e256]; exact lb
        constructor
        · rintro ⟨rfl, h⟩; rw [h]
        · intro h
          have hxy : x = y := by
            have p := Nat.two_pow_pos (8 * a.length - k)
            have e1 : (x * 2 ^ (8 * a.length - k) + addrVal a / 2 ^ k) / 2 ^ (8 * a.length - k) = x := by
              rw [Nat.mul_comm, Nat.mul_add_div p, Nat.div_eq_of_lt qa]; simp
            have e2 : (y * 2 ^ (8 * a.length - k) + addrVal b / 2 ^ k) / 2 ^ (8 * a.length - k) = y := by
              rw [Nat.mul_comm, Nat.mul_add_div p, Nat.div_eq_of_lt qb]; simp
            rw [← e1, ← h, e2]
          subst hxy
          exact ⟨rfl, by omega⟩
      · rename_i h8
        simp only [agreeMask, Bool.and_eq_true, decide_eq_true_eq, agree_zero, and_true]
        rw [mask_byte bits (by omega) x hx, mask_byte bits (by omega) y hy]
        have ek : 8 * (a.length + 1) - bits = 8 * a.length + (8 - bits) := by omega
        rw [ek, Nat.pow_add, ← Nat.div_div_eq_div_mul, ← Nat.div_div_eq_div_mul]
        have d1 : (y * 256 ^ a.length + addrVal b) / 2 ^ (8 * a.length) = y := by
          rw [div_step y a.length (addrVal b) _ (Nat.le_refl _), Nat.div_eq_of_lt (by rw [Nat.pow_mul]; exact lb)]; simp
        have d2 : (x * 256 ^ a.length + addrVal a) / 2 ^ (8 * a.length) = x := by
          rw [div_step x a.length (addrVal a) _ (Nat.le_refl _), Nat.div_eq_of_lt (by rw [Nat.pow_mul]; exact la)]; simp
        rw [d1, d2]
        constructor
        · intro h; exact (Nat.eq_of_mul_eq_mul_right (Nat.two_pow_pos _) h).symm
        · intro h; rw [h]

private theorem cidrMask_length : ∀ (k n : Nat), (cidrMask n k).length = k := by
  intro k
  induction k with
  | zero => intro n; rfl
  | succ k ih => intro n; unfold cidrMask; split <;> simp [ih]

theorem to4_cidr {n : IpNet} {bits : Nat} (h : Cidr n bits) :
    ipTo4 n.ip = if n.ip.length = 4 then some n.ip else none := by
  unfold ipTo4
  split
  · rfl
  · rename_i h4
    rw [if_neg]
    intro h'
    rcases h.1 with h1 | ⟨_, h1⟩
    · exact h4 h1
    · exact h1 h'.2

private theorem contains_iff {n : IpNet} {bits : Nat} (h : Cidr n bits) (ip : List Byte) (hip : ∀ b ∈ ip, b < 256)
    (hmap : n.ip.length = 4 → ip.length ≠ 16) :
    netContains n ip = true → InNet n bits ip := by
  obtain ⟨h1, h2, h3, h4⟩ := h
  have hn : netNumberAndMask n = some (n.ip, n.mask) := by
    unfold netNumberAndMask
    rw [to4_cidr ⟨h1, h2, h3, h4⟩]
    have hm : n.mask.length = n.ip.length := by rw [h4, cidrMask_length]
    rcases h1 with h1 | ⟨h1, _⟩
    · simp [h1, hm]
    · simp [h1, hm]
  unfold netContains
  rw [hn]
  dsimp only
  split
  · intro h; cases h
  · rename_i hl
    have hl := Classical.not_not.1 hl
    intro hag
    have hx : (ipTo4 ip).getD ip = ip := by
      unfold ipTo4
      split
      · rfl
      · split
        · rename_i h4' h16
          exfalso
          have : ((ipTo4 ip).getD ip).length = 4 := by
            unfold ipTo4
            rw [if_neg h4', if_pos h16]
            simp [h16.1]
          rw [this] at hl
          exact hmap hl.symm h16.1
        · rfl
    rw [hx] at hl hag
    rw [h4] at hag
    exact ⟨hl, (agree_iff n.ip ip bits hl.symm h3 h2 hip).1 hag⟩

/-- With an IPv4 network the sum never has the size of an IPv6 address: at most the next power of 256 is
reached, unless the user ID is astronomical. -/
private theorem sum_size (n : IpNet) (hb : ∀ b ∈ n.ip, b < 256) (h4 : n.ip.length = 4) (id : Nat) (hid : id < 2 ^ 63) :
    (bytesOfNat (natOfBytes n.ip + (id + 1))).length ≠ 16 := by
  intro h
  have hv := bytesOfNat_val (natOfBytes n.ip + (id + 1))
  have hlt := addrVal_lt n.ip hb
  rw [h4] at hlt
  rw [natOfBytes_eq] at hv h
  have hpos : ∀ c r, bytesOfNat (addrVal n.ip + (id + 1)) = c :: r → c ≠ 0 := by
    have key : ∀ f m, ∀ c r, bytesAux f m = c :: r → m ≤ f → c ≠ 0 := by
      intro f
      induction f with
      | zero => intro m c r h; cases h
      | succ f ih =>
        intro m c r h hm
        unfold bytesAux at h
        split at h
        · cases h
        · rename_i h0
          cases hb : bytesAux f (m / 256) with
          | nil =>
            rw [hb] at h
            simp only [List.nil_append, List.cons.injEq] at h
            have := bytesAux_val f (m / 256) (by omega)
            rw [hb] at this
            simp only [addrVal] at this
            omega
          | cons c' r' =>
            rw [hb] at h
            simp only [List.cons_append, List.cons.injEq] at h
            rw [← h.1]
            exact ih (m / 256) c' r' hb (by omega)
    intro c r h
    exact key _ _ c r h (Nat.le_refl _)
  cases hbs : bytesOfNat (addrVal n.ip + (id + 1)) with
  | nil => rw [hbs] at h; simp at h
  | cons c r =>
    have hc := hpos c r hbs
    rw [hbs] at h hv
    simp only [List.length_cons] at h
    rw [addrVal] at hv
    have hr : r.length = 15 := by omega
    rw [hr] at hv
    have : 1 * 256 ^ 15 ≤ c * 256 ^ 15 := Nat.mul_le_mul_right _ (by omega)
    omega

/-! ## Properties -/

/-- The address given to a user is in the range of the right kind. -/
theorem C46_inside (ranges : List IpNet) (hr : ∀ n ∈ ranges, ∃ bits, Cidr n bits) (remote : List Byte) (id : Nat)
    (hid : id < 2 ^ 63) (ip : List Byte) (h : localTCPAddr ranges remote id = .addr ip) :
    ∃ n ∈ ranges, ∀ bits, Cidr n bits → InNet n bits ip ∧
      (ip.length = 4 ↔ (ipTo4 remote).isSome) ∧ addrVal ip = addrVal n.ip + id + 1 := by
  unfold localTCPAddr at h
  split at h
  · cases h
  · rename_i n hf
    dsimp only at h
    split at h
    · rename_i hc
      cases h
      have hm := List.mem_of_find?_eq_some hf
      refine ⟨n, hm, ?_⟩
      intro bits hcidr
      have hin : InNet n bits (bytesOfNat (natOfBytes n.ip + (id + 1))) := contains_iff hcidr _ (bytesAux_lt _ _) (fun h4 => sum_size n hcidr.2.1 h4 id hid) hc
      refine ⟨hin, ?_, ?_⟩
      · have hp := List.find?_some hf
        simp only [decide_eq_true_eq] at hp
        rw [to4_cidr hcidr] at hp
        rw [hin.1]
        by_cases h4 : n.ip.length = 4
        · simp only [h4, if_true, Option.isNone_some] at hp
          simp only [h4, true_iff]
          cases hr4 : ipTo4 remote with
          | none => rw [hr4] at hp; cases hp
          | some _ => rfl
        · simp only [h4, if_false, Option.isNone_none] at hp
          simp only [h4, false_iff]
          cases hr4 : ipTo4 remote with
          | none => simp
          | some _ => rw [hr4] at hp; cases hp
      · rw [bytesOfNat_val, natOfBytes_eq]; omega
    · cases h

/-- Two users never get the same address, whatever they connect to. -/
theorem C46_distinct (ranges : List IpNet) (hr : ∀ n ∈ ranges, ∃ bits, Cidr n bits)
    (remote remote' : List Byte) (id id' : Nat) (hid : id < 2 ^ 63) (hid' : id' < 2 ^ 63) (ip : List Byte)
    (h : localTCPAddr ranges remote id = .addr ip) (h' : localTCPAddr ranges remote' id' = .addr ip) : id = id' := by
  have hk := C46_inside ranges hr remote id hid ip h
  have hk' := C46_inside ranges hr remote' id' hid' ip h'
  obtain ⟨n1, hm1, e1⟩ := hk
  obtain ⟨n2, hm2, e2⟩ := hk'
  obtain ⟨b1, c1⟩ := hr n1 hm1
  obtain ⟨b2, c2⟩ := hr n2 hm2
  have k1 := (e1 b1 c1).2.1
  have k2 := (e2 b2 c2).2.1
  have hiso : (ipTo4 remote).isSome = (ipTo4 remote').isSome := by
    cases x : (ipTo4 remote).isSome <;> cases y : (ipTo4 remote').isSome <;> simp_all
  have hisn : (ipTo4 remote).isNone = (ipTo4 remote').isNone := by
    rw [← Option.not_isSome, ← Option.not_isSome, hiso]
  unfold localTCPAddr at h h'
  rw [hisn] at h
  split at h
  · cases h
  · rename_i n hf
    rw [hf] at h'
    dsimp only at h h'
    split at h
    · split at h'
      · have e : bytesOfNat (natOfBytes n.ip + (id + 1)) = bytesOfNat (natOfBytes n.ip + (id' + 1)) := by
          injection h with h1
          injection h' with h2
          rw [h1, h2]
        have := congrArg addrVal e
        rw [bytesOfNat_val, bytesOfNat_val] at this
        omega
      · cases h'
    · cases h

/-- The base address of a range is never used. -/
theorem C46_base (ranges : List IpNet) (hr : ∀ n ∈ ranges, ∃ bits, Cidr n bits)
    (hone : ∀ n ∈ ranges, ∀ m ∈ ranges, n.ip.length = m.ip.length → n = m) (remote : List Byte) (id : Nat)
    (hid : id < 2 ^ 63) (ip : List Byte) (h : localTCPAddr ranges remote id = .addr ip) :
    ∀ n ∈ ranges, ip ≠ n.ip := by
  obtain ⟨n, hm, hk⟩ := C46_inside ranges hr remote id hid ip h
  obtain ⟨bits, hc⟩ := hr n hm
  obtain ⟨hin, _, hv⟩ := hk bits hc
  intro m hm' he
  subst he
  have := hone n hm m hm' hin.1.symm
  subst this
  omega

/-- There is an address for a user when the range has room for it (and does not begin with a zero byte). -/
theorem C46_assigned (n : IpNet) (bits : Nat) (hc : Cidr n bits) (others : List IpNet)
    (remote : List Byte) (hk : (ipTo4 remote).isSome ↔ n.ip.length = 4) (id : Nat)
    (hroom : (addrVal n.ip + id + 1) / 2 ^ (8 * n.ip.length - bits) = addrVal n.ip / 2 ^ (8 * n.ip.length - bits))
    (h0 : ∀ c r, n.ip = c :: r → c ≠ 0) :
    ∃ ip, localTCPAddr (n :: others) remote id = .addr ip ∧ addrVal ip = addrVal n.ip + id + 1 := by
  refine ⟨bytesOfNat (natOfBytes n.ip + (id + 1)), ?_, by rw [bytesOfNat_val, natOfBytes_eq]; omega⟩
  have hnone : decide ((ipTo4 remote).isNone = (ipTo4 n.ip).isNone) = true := by
    rw [to4_cidr hc]
    by_cases h4 : n.ip.length = 4
    · have := hk.2 h4
      cases hr : ipTo4 remote with
      | none => rw [hr] at this; cases this
      | some _ => simp [h4]
    · cases hr : ipTo4 remote with
      | none => simp [h4]
      | some _ => exact absurd (hk.1 (by rw [hr]; rfl)) h4
  unfold localTCPAddr
  rw [List.find?_cons, hnone]
  dsimp only
  rw [if_pos]
  -- the bytes of the sum
  obtain ⟨h1, h2, h3, h4⟩ := hc
  have hlen : n.ip.length ≠ 0 := by rcases h1 with h | ⟨h, _⟩ <;> omega
  have hlt := addrVal_lt n.ip h2
  have hlt2 : addrVal n.ip + id + 1 < 256 ^ n.ip.length := by
    have e : 256 ^ n.ip.length = 2 ^ bits * 2 ^ (8 * n.ip.length - bits) := by
      rw [← Nat.pow_add, show bits + (8 * n.ip.length - bits) = 8 * n.ip.length by omega, Nat.pow_mul]
    rw [e] at hlt ⊢
    rw [← Nat.div_lt_iff_lt_mul (Nat.two_pow_pos _)] at hlt ⊢
    rw [hroom]; exact hlt
  -- the same number of bytes
  have hrep : ∀ (l v : Nat), v < 256 ^ l → ∃ bs : List Byte, bs.length = l ∧ (∀ b ∈ bs, b < 256) ∧ addrVal bs = v := by
    intro l
    induction l with
    | zero => intro v hv; exact ⟨[], rfl, by simp, by simp at hv; subst hv; rfl⟩
    | succ l ih =>
      intro v hv
      rw [Nat.pow_succ] at hv
      obtain ⟨bs, hl, hb, hv'⟩ := ih (v / 256) (by omega)
      refine ⟨bs ++ [v % 256], by simp [hl], ?_, ?_⟩
      · intro b hb'
        rcases List.mem_append.1 hb' with hb' | hb'
        · exact hb b hb'
        · simp only [List.mem_singleton] at hb'; omega
      · rw [addrVal_snoc, hv']; omega
  obtain ⟨bs, hl, hb, hv⟩ := hrep n.ip.length (addrVal n.ip + id + 1) hlt2
  have hbs : bytesOfNat (natOfBytes n.ip + (id + 1)) = bs := by
    rw [natOfBytes_eq]
    refine bytesOfNat_size _ bs hb (by omega) ?_
    intro c r e
    cases hn : n.ip with
    | nil => rw [hn] at hlen; simp at hlen
    | cons c' r' =>
      have hc' := h0 c' r' hn
      intro hz
      subst hz
      rw [e, addrVal] at hv
      rw [hn, addrVal] at hv
      have hr : r.length = r'.length := by
        rw [e, hn] at hl; simpa using hl
      have hlr := addrVal_lt r (fun x hx => hb x (by rw [e]; simp [hx]))
      rw [hr] at hlr
      have : 1 * 256 ^ r'.length ≤ c' * 256 ^ r'.length := Nat.mul_le_mul_right _ (by omega)
      omega
  rw [hbs]
  -- it is contained
  have hn : netNumberAndMask n = some (n.ip, n.mask) := by
    unfold netNumberAndMask
    rw [to4_cidr ⟨h1, h2, h3, h4⟩]
    have hm : n.mask.length = n.ip.length := by rw [h4, cidrMask_length]
    rcases h1 with h1 | ⟨h1, _⟩
    · simp [h1, hm]
    · simp [h1, hm]
  unfold netContains
  rw [hn]
  dsimp only
  have hx : (ipTo4 bs).getD bs = bs := by
    unfold ipTo4
    split
    · rfl
    · split
      · rename_i hbad
        exfalso
        cases bs with
        | nil => simp at hbad
        | cons c r =>
          have hc0 : c = 0 := by
            have := congrArg List.head? hbad.2
            simpa using this
          cases hn' : n.ip with
          | nil => rw [hn'] at hlen; simp at hlen
          | cons c' r' =>
            have hc' := h0 c' r' hn'
            subst hc0
            rw [hn', addrVal, addrVal] at hv
            have hr : r.length = r'.length := by rw [hn'] at hl; simpa using hl
            have hlr := addrVal_lt r (fun x hx => hb x (by simp [hx]))
            rw [hr] at hlr
            have : 1 * 256 ^ r'.length ≤ c' * 256 ^ r'.length := Nat.mul_le_mul_right _ (by omega)
            omega
      · rfl
  rw [hx, if_neg (by omega), h4]
  exact (agree_iff n.ip bs bits hl.symm h3 h2 hb).2 (by rw [hv]; exact hroom)

/-- A range that begins with a zero byte gives nobody an address: the leading zero is lost. -/
theorem C46_leading_zero (n : IpNet) (bits : Nat) (hc : Cidr n bits) (r : List Byte) (hz : n.ip = 0 :: r)
    (hb : 8 ≤ bits) (remote : List Byte) (id : Nat) (hid : id < 2 ^ 63) (ip : List Byte) :
    localTCPAddr [n] remote id ≠ .addr ip := by
  intro h
  obtain ⟨m, hm, hk⟩ := C46_inside [n] (by intro x hx; simp only [List.mem_singleton] at hx; exact ⟨bits, hx ▸ hc⟩)
    remote id hid ip h
  simp only [List.mem_singleton] at hm
  subst hm
  obtain ⟨hin, _, hv⟩ := hk bits hc
  have hlb := hc.2.2.1
  have hip : ip = bytesOfNat (natOfBytes m.ip + (id + 1)) := by
    unfold localTCPAddr at h
    split at h
    · cases h
    · rename_i n' hf
      have := List.mem_of_find?_eq_some hf
      simp only [List.mem_singleton] at this
      subst this
      dsimp only at h
      split at h
      · cases h; rfl
      · cases h
  -- the first byte of the address is zero, as it is in the network
  have hlt : ∀ b ∈ ip, b < 256 := by rw [hip]; exact bytesAux_lt _ _
  cases hi : ip with
  | nil => have := hin.1; rw [hi, hz] at this; simp at this
  | cons c s =>
    have hl : s.length = r.length := by have := hin.1; rw [hi, hz] at this; simpa using this
    have h2 := hin.2
    rw [hi, hz, List.length_cons, addrVal, addrVal, hl] at h2
    rw [hz, List.length_cons] at hlb
    have hr := addrVal_lt r (fun x hx => hc.2.1 x (by rw [hz]; simp [hx]))
    have hkk : 8 * (r.length + 1) - bits ≤ 8 * r.length := by omega
    rw [div_step c _ _ _ hkk, div_step 0 _ _ _ hkk] at h2
    generalize hkd : 8 * (r.length + 1) - bits = k at h2 hkk
    have e256 : 256 ^ r.length = 2 ^ (8 * r.length - k) * 2 ^ k := by
      rw [← Nat.pow_add, show 8 * r.length - k + k = 8 * r.length by omega, Nat.pow_mul]
    have qr : addrVal r / 2 ^ k < 2 ^ (8 * r.length - k) := by
      rw [Nat.div_lt_iff_lt_mul (Nat.two_pow_pos k), ← e256]; exact hr
    have hc0 : c = 0 := by
      by_cases hc0 : c = 0
      · exact hc0
      · exfalso
        have : 1 * 2 ^ (8 * r.length - k) ≤ c * 2 ^ (8 * r.length - k) := Nat.mul_le_mul_right _ (by omega)
        generalize 2 ^ (8 * r.length - k) = P at this qr h2
        generalize c * P = Q at this h2
        generalize addrVal s / 2 ^ k = S at h2
        generalize addrVal r / 2 ^ k = R at h2 qr
        omega
    -- but numbers are written without leading zeros
    have key : ∀ f m, ∀ c r, bytesAux f m = c :: r → m ≤ f → c ≠ 0 := by
      intro f
      induction f with
      | zero => intro m c r h; cases h
      | succ f ih =>
        intro m c r h hm
        unfold bytesAux at h
        split at h
        · cases h
        · rename_i h0
          cases hb : bytesAux f (m / 256) with
          | nil =>
            rw [hb] at h
            simp only [List.nil_append, List.cons.injEq] at h
            have := bytesAux_val f (m / 256) (by omega)
            rw [hb] at this
            simp only [addrVal] at this
            omega
          | cons c' r' =>
            rw [hb] at h
            simp only [List.cons_append, List.cons.injEq] at h
            rw [← h.1]
            exact ih (m / 256) c' r' hb (by omega)
    rw [hi] at hip
    exact key _ _ c s hip.symm (Nat.le_refl _) hc0

/-! ## A case -/

/-- 10.1.0.0/24 -/
def ipNetEx : IpNet := ⟨[10, 1, 0, 0], [255, 255, 255, 0]⟩

/-- 2001:db8::/64 -/
def ipNetEx6 : IpNet := ⟨[32, 1, 13, 184, 0, 0, 0, 0, 0, 0, 0, 0, 0, 0, 0, 0], cidrMask 64 16⟩

example : Cidr ipNetEx 24 ∧ Cidr ipNetEx6 64 ∧
    localTCPAddr [ipNetEx, ipNetEx6] [192, 0, 2, 1] 5 = .addr [10, 1, 0, 6] ∧
    localTCPAddr [ipNetEx, ipNetEx6] [192, 0, 2, 1] 254 = .addr [10, 1, 0, 255] ∧
    localTCPAddr [ipNetEx, ipNetEx6] [192, 0, 2, 1] 255 = .tooSmall ∧
    localTCPAddr [ipNetEx] [38, 0, 0, 0, 0, 0, 0, 0, 0, 0, 0, 0, 0, 0, 0, 1] 5 = .automatic := by
  refine ⟨by simp [Cidr, ipNetEx, cidrMask], by simp [Cidr, ipNetEx6], ?_, ?_, ?_, ?_⟩ <;> decide +kernel

/-- The network 64:ff9b::/96 begins with a zero byte. -/
example : Cidr ⟨[0, 100, 255, 155, 0, 0, 0, 0, 0, 0, 0, 0, 0, 0, 0, 0], cidrMask 96 16⟩ 96 := by
  refine ⟨Or.inr ⟨rfl, by decide⟩, by decide, by decide, rfl⟩

/-- `v` is the address without the prefix `::ffff:` that marks an IPv4 address. -/
def PlainAddr (ip v : List Byte) : Prop :=
  (ip = [0, 0, 0, 0, 0, 0, 0, 0, 0, 0, 255, 255] ++ v ∧ v.length = 4) ∨
  (ip = v ∧ (v.length = 4 ∨ (v.length = 16 ∧ v.take 12 ≠ [0, 0, 0, 0, 0, 0, 0, 0, 0, 0, 255, 255])))

theorem plainAddr_to4 {ip v : List Byte} (hl : ip.length = 4 ∨ ip.length = 16) : PlainAddr ip v ↔ (ipTo4 ip).getD ip = v := by
  unfold PlainAddr ipTo4
  by_cases h4 : ip.length = 4
  · rw [if_pos h4]
    simp only [Option.getD_some]
    constructor
    · rintro (⟨rfl, h⟩ | ⟨h, _⟩)
      · simp [h] at h4
      · exact h
    · rintro rfl; exact .inr ⟨rfl, .inl h4⟩
  · have h16 : ip.length = 16 := by omega
    rw [if_neg h4]
    by_cases hp : ip.take 12 = [0, 0, 0, 0, 0, 0, 0, 0, 0, 0, 255, 255]
    · rw [if_pos ⟨h16, hp⟩]
      simp only [Option.getD_some]
      constructor
      · rintro (⟨rfl, h⟩ | ⟨rfl, h | h⟩)
        · simp
        · exact absurd h h4
        · exact absurd hp h.2
      · rintro rfl
        left
        refine ⟨?_, by simp [h16]⟩
        rw [← hp, List.take_append_drop]
    · rw [if_neg (fun h => hp h.2)]
      simp only [Option.getD_none]
      constructor
      · rintro (⟨rfl, h⟩ | ⟨h, _⟩)
        · simp at hp
        · exact h
      · rintro rfl; exact .inr ⟨rfl, .inr ⟨h16, hp⟩⟩

/-- C46 (and the ranges of trusted proxies in C47): an address is found to be in a network exactly if it is of the same
kind, where `::ffff:a.b.c.d` counts as IPv4, and has the first bits of the network. -/
theorem C46_contains (n : IpNet) (bits : Nat) (hn : Cidr n bits) (ip : List Byte) (hl : ip.length = 4 ∨ ip.length = 16)
    (hb : ∀ b ∈ ip, b < 256) : netContains n ip = true ↔ ∃ v, PlainAddr ip v ∧ InNet n bits v := by
  obtain ⟨h1, h2, h3, h4⟩ := hn
  have hnn : (ipTo4 n.ip).getD n.ip = n.ip := by
    unfold ipTo4
    rcases h1 with h1 | ⟨h1, h5⟩
    · rw [if_pos h1]; rfl
    · rw [if_neg (by omega), if_neg (fun h => h5 h.2)]; rfl
  have hv : ∀ x ∈ (ipTo4 ip).getD ip, x < 256 := by
    intro x hx
    apply hb
    unfold ipTo4 at hx
    split at hx
    · exact hx
    · split at hx
      · exact List.mem_of_mem_drop hx
      · exact hx
  have hmask : netNumberAndMask n = some (n.ip, cidrMask bits n.ip.length) := by
    have hml : (cidrMask bits n.ip.length).length = n.ip.length := cidrMask_length _ _
    unfold netNumberAndMask
    rw [hnn, h4]
    dsimp only
    rw [hml]
    rcases h1 with h1 | ⟨h1, _⟩ <;> simp [h1]
  unfold netContains
  rw [hmask]
  dsimp only
  have : (∃ v, PlainAddr ip v ∧ InNet n bits v) ↔ InNet n bits ((ipTo4 ip).getD ip) := by
    constructor
    · rintro ⟨v, h, h'⟩
      rw [← plainAddr_to4 hl |>.1 h] at h'; exact h'
    · intro h; exact ⟨_, (plainAddr_to4 hl).2 rfl, h⟩
  rw [this]
  unfold InNet
  by_cases hlen : ((ipTo4 ip).getD ip).length = n.ip.length
  · rw [if_neg (by simpa using hlen), agree_iff _ _ _ hlen.symm h3 h2 hv]
    simp [hlen]
  · rw [if_pos hlen]; simp [hlen]

example : let n : IpNet := ⟨[192, 168, 16, 0], cidrMask 20 4⟩
    Cidr n 20 ∧ netContains n ([0, 0, 0, 0, 0, 0, 0, 0, 0, 0, 255, 255] ++ [192, 168, 31, 9]) = true ∧
    netContains n [192, 168, 32, 9] = false := by
  refine ⟨⟨.inl rfl, by decide, by decide, rfl⟩, by decide, by decide⟩

end Verif.Props
