/-
C24: dimensions.
-/
import Verif.Props.Header

namespace Props
open Go Radolan Spec

theorem runes_append_ascii {a b : Bytes} (ha : ∀ x ∈ a, x < 128) (hb : ∀ x ∈ b, x < 128) :
    runes (a ++ b) = a.map UInt8.toNat ++ b.map UInt8.toNat := by
  rw [runes_ascii, List.map_append]
  intro x hx
  rcases List.mem_append.mp hx with h | h
  exacts [ha x h, hb x h]

theorem numText_toNat {text : Bytes} {n : Int} (h : NumText text n) :
    (∀ b ∈ text, b < 128) ∧ ∀ rest : List Nat, (∀ r ∈ rest.head?, isDigit r = false) →
      scanD (text.map UInt8.toNat ++ rest) = some (n, rest) := by
  obtain ⟨b, s, ds, rfl, hne, hd, hn, h1, h2⟩ := h
  constructor
  · intro x hx
    simp only [List.mem_append] at hx
    rcases hx with (hx | hx) | hx
    · rw [List.mem_replicate] at hx; rw [hx.2]; decide
    · exact sign_ascii s x hx
    · exact asciiDigits_ascii hd x hx
  · intro rest hr
    have := scanD_number b s hne hd rest hr (hn ▸ h1) (hn ▸ h2)
    rw [hn, ← this]
    congr 1
    simp [asciiDigits_toNat hd, signRunes, List.append_assoc]

theorem sscanfDxD_grid {text : Bytes} {r k : Int} (h : IsGrid text r k) : sscanfDxD text = (some r, some k) := by
  obtain ⟨t1, t2, rest, rfl, h1, h2, h3, h4⟩ := h
  obtain ⟨a1, s1⟩ := numText_toNat h1
  obtain ⟨a2, s2⟩ := numText_toNat h2
  unfold sscanfDxD
  rw [runes_ascii]
  · simp only [List.map_append, List.append_assoc]
    rw [s1 _ (by simp; decide)]
    simp only [List.map_cons, List.map_nil, List.cons_append, List.nil_append]
    have : (120 : UInt8).toNat = 120 := rfl
    rw [this]
    simp only
    rw [s2 _ (nondigit_head h4)]
    rfl
  · intro x hx
    simp only [List.mem_append, List.mem_singleton] at hx
    rcases hx with ((hx | hx) | hx) | hx
    · exact a1 x hx
    · subst hx; decide
    · exact a2 x hx
    · exact h3 x hx

theorem decimal_lt {ds : List Nat} (hd : ∀ d ∈ ds, d < 10) : decimal ds < 10 ^ ds.length := by
  induction ds with
  | nil => simp [decimal]
  | cons d ds ih =>
    have h1 := hd d (by simp)
    have h2 := ih (fun x hx => hd x (by simp [hx]))
    simp only [decimal, List.length_cons, Nat.pow_succ]
    have : d * 10 ^ ds.length ≤ 9 * 10 ^ ds.length := Nat.mul_le_mul_right _ (by omega)
    omega

/-- `%3d` on three or more digits takes exactly three -/
theorem scanDw_three {ds : List Nat} (hl : ds.length = 3) (hd : ∀ d ∈ ds, d < 10) (rest : List Nat) :
    scanDw 3 (ds.map (48 + ·) ++ rest) = some ((decimal ds : Int), rest) := by
  have hne : ds ≠ [] := by intro h; subst h; simp at hl
  have hlt := decimal_lt hd
  rw [hl] at hlt
  obtain ⟨r, l, he, hr1, hr2⟩ := head_number .none hne hd rest
  simp only [signRunes, Spec.Sign.text, List.map_nil, List.nil_append] at he
  unfold scanDw
  rw [he, skipSpace_id ⟨hr1, hr2⟩, ← he]
  simp only [Option.bind_eq_bind, Option.bind_some]
  have ht : (ds.map (48 + ·) ++ rest).take 3 = ds.map (48 + ·) := by
    rw [List.take_append_of_le_length (by simp [hl])]; simp [← hl]
  have hdr : (ds.map (48 + ·) ++ rest).drop 3 = rest := by
    rw [List.drop_append]; simp [hl]
  rw [ht, hdr]
  have := scanInt_number .none hne hd [] (by simp) (by simp only [Spec.Sign.apply]; omega) (by simp only [Spec.Sign.apply]; omega)
  simp only [signRunes, Spec.Sign.text, List.map_nil, List.nil_append, List.append_nil, Spec.Sign.apply] at this
  rw [this]
  rfl

theorem sscanf3D3D_grid {text : Bytes} {r k : Nat} (h : IsGrid3 text r k) :
    sscanf3D3D text = (some (r : Int), some (k : Int)) := by
  obtain ⟨d1, d2, rest, rfl, l1, l2, hd, hr, h1, h2⟩ := h
  have hd1 : ∀ d ∈ d1, d < 10 := fun d hx => hd d (List.mem_append_left _ hx)
  have hd2 : ∀ d ∈ d2, d < 10 := fun d hx => hd d (List.mem_append_right _ hx)
  unfold sscanf3D3D
  rw [runes_ascii]
  · simp only [List.map_append, asciiDigits_toNat hd1, asciiDigits_toNat hd2, List.append_assoc]
    rw [scanDw_three l1 hd1]
    simp only
    rw [scanDw_three l2 hd2, h1, h2]
    rfl
  · intro x hx
    simp only [List.mem_append] at hx
    rcases hx with (hx | hx) | hx
    · exact asciiDigits_ascii hd1 x hx
    · exact asciiDigits_ascii hd2 x hx
    · exact hr x hx

theorem lookup_dims (p : Bytes) :
    (∀ v, dimensionCatalog.lookup p = some v → (p ∈ stripProducts ∧ v.px = 200 ∧ v.py = 224 ∧ v.dx = 200 ∧ v.dy = 200) ∨
      (p ∈ volumeProducts ∧ v.px = 200 ∧ v.py = 2400 ∧ v.dx = 200 ∧ v.dy = 200)) := by
  intro v h
  rw [List.lookup_eq_some_iff] at h
  obtain ⟨l1, l2, hl, _⟩ := h
  have hm : (p, v) ∈ dimensionCatalog := by rw [hl]; simp
  have hall : ∀ q ∈ dimensionCatalog, (q.1 ∈ stripProducts ∧ q.2.px = 200 ∧ q.2.py = 224 ∧ q.2.dx = 200 ∧ q.2.dy = 200) ∨
      (q.1 ∈ volumeProducts ∧ q.2.px = 200 ∧ q.2.py = 2400 ∧ q.2.dx = 200 ∧ q.2.dy = 200) := by decide
  exact hall _ hm

/-- C24. Dimensions come from GP ("rows x columns"), else from BG (three digits each), else from the product
catalog, else parsing fails; the first number is the number of rows, the second the number of columns. -/
theorem C24_dimensions {E : Env} {fs : List Field} {data : Bytes} {c : Composite} (hw : ∀ f ∈ fs, f.WF)
    (hS : Success E (file fs data) c) :
    (∀ v rows cols, value fs (str "GP") = some v → IsGrid v rows cols →
      c.dy = rows ∧ c.dx = cols ∧ c.py = rows ∧ c.px = cols) ∧
    (value fs (str "GP") = none → ∀ v rows cols, value fs (str "BG") = some v → IsGrid3 v rows cols →
      c.dy = rows ∧ c.dx = cols ∧ c.py = rows ∧ c.px = cols) ∧
    (value fs (str "GP") = none → value fs (str "BG") = none →
      (c.product ∈ stripProducts ∧ c.dx = 200 ∧ c.dy = 200 ∧ c.px = 200 ∧ c.py = 224) ∨
      (c.product ∈ volumeProducts ∧ c.dx = 200 ∧ c.dy = 200 ∧ c.px = 200 ∧ c.py = 2400)) := by
  obtain ⟨h, rows, rest', hh, ha, hd, rfl, hf, _⟩ := success_fields hw hS
  have h1 := hf.dims
  have e1 : (finish E h rows).product = h.product := rfl
  have e2 : (finish E h rows).dx = h.dx := rfl
  have e3 : (finish E h rows).dy = h.dy := rfl
  have e4 : (finish E h rows).px = h.px := rfl
  have e5 : (finish E h rows).py = h.py := rfl
  rw [← hf.product] at h1
  unfold dimsOf at h1
  rw [find_pairs, find_pairs] at h1
  rw [e1, e2, e3, e4, e5]
  refine ⟨?_, ?_, ?_⟩
  · intro v r k hv hg
    rw [hv] at h1
    simp only [sscanfDxD_grid hg, both, Option.map_some, Option.some.injEq, Dims.mk.injEq] at h1
    omega
  · intro hn v r k hv hg
    rw [hn, hv] at h1
    simp only [sscanf3D3D_grid hg, both, Option.map_some, Option.some.injEq, Dims.mk.injEq] at h1
    omega
  · intro hn hn2
    rw [hn, hn2] at h1
    simp only [Option.map_eq_some_iff, Dims.mk.injEq] at h1
    obtain ⟨v, hv, hd⟩ := h1
    rcases lookup_dims _ v hv with ⟨hp, hx⟩ | ⟨hp, hx⟩
    · left; refine ⟨hp, ?_⟩; omega
    · right; refine ⟨hp, ?_⟩; omega

/-- a file with GP, one with BG -/
example : (∃ c, Success env0 (file fieldsRX [10, 20, 30, 40, 250, 60, 99]) c ∧
      value fieldsRX (str "GP") = some (str " 2x 3") ∧ IsGrid (str " 2x 3") 2 3) ∧
    (∃ c, Success env0 samplePC c ∧ IsGrid3 (str "002004") 2 4) := by
  constructor
  · obtain ⟨c, h, _⟩ := sampleRX_ok
    rw [← fieldsRX_file] at h
    exact ⟨c, h, by decide, [32, 50], [32, 51], [], by decide,
      ⟨1, .none, [2], by decide, by decide, by decide, by decide, by decide, by decide⟩,
      ⟨1, .none, [3], by decide, by decide, by decide, by decide, by decide, by decide⟩, by decide, by decide⟩
  · obtain ⟨c, h, _⟩ := samplePC_ok
    exact ⟨c, h, [0, 0, 2], [0, 0, 4], [], by decide, by decide, by decide, by decide, by decide, by decide, by decide⟩

/-- C24, limitation of the code: a BG field whose first number is padded with a blank instead of a zero
(" ab" "cde") is read as the numbers abc and de. -/
theorem C24_blank_padded_BG {E : Env} {fs : List Field} {data : Bytes} {c : Composite} (hw : ∀ f ∈ fs, f.WF)
    (hS : Success E (file fs data) c) {r1 r2 k1 k2 k3 : Nat} (hr1 : r1 < 10) (hr2 : r2 < 10)
    (hk1 : k1 < 10) (hk2 : k2 < 10) (hk3 : k3 < 10) (hGP : value fs (str "GP") = none)
    (hBG : value fs (str "BG") = some ([32] ++ asciiDigits [r1, r2] ++ asciiDigits [k1, k2, k3])) :
    c.dy = 100 * r1 + 10 * r2 + k1 ∧ c.dx = 10 * k2 + k3 := by
  obtain ⟨h, rows, rest', hh, ha, hd, rfl, hf, _⟩ := success_fields hw hS
  have h1 := hf.dims
  unfold dimsOf at h1
  rw [find_pairs, find_pairs, hGP, hBG] at h1
  have hda : ∀ d ∈ [r1, r2, k1], d < 10 := by intro d hd; simp at hd; omega
  have hdb : ∀ d ∈ [k2, k3], d < 10 := by intro d hd; simp at hd; omega
  have htxt : ([32] ++ asciiDigits [r1, r2] ++ asciiDigits [k1, k2, k3] : Bytes)
      = [32] ++ (asciiDigits [r1, r2, k1] ++ asciiDigits [k2, k3]) := rfl
  have hsc : sscanf3D3D ([32] ++ (asciiDigits [r1, r2, k1] ++ asciiDigits [k2, k3]))
      = (some ((decimal [r1, r2, k1] : Nat) : Int), some ((decimal [k2, k3] : Nat) : Int)) := by
    unfold sscanf3D3D
    rw [runes_ascii]
    · simp only [List.map_append, asciiDigits_toNat hda, asciiDigits_toNat hdb]
      have h3 := scanDw_three (ds := [r1, r2, k1]) rfl hda ([k2, k3].map (48 + ·))
      have : scanDw 3 (List.map UInt8.toNat [32] ++ ([r1, r2, k1].map (48 + ·) ++ [k2, k3].map (48 + ·)))
          = scanDw 3 ([r1, r2, k1].map (48 + ·) ++ [k2, k3].map (48 + ·)) := by
        unfold scanDw
        congr 1
      rw [this, h3]
      simp only
      unfold scanDw
      obtain ⟨r, l, he, hr1', hr2'⟩ := head_number .none (ds := [k2, k3]) (by simp) hdb []
      simp only [signRunes, Spec.Sign.text, List.map_nil, List.nil_append, List.append_nil] at he
      rw [he, skipSpace_id ⟨hr1', hr2'⟩, ← he]
      simp only [Option.bind_eq_bind, Option.bind_some]
      have h4 := scanInt_number .none (ds := [k2, k3]) (by simp) hdb [] (by simp)
        (by simp only [Spec.Sign.apply]; omega) (by simp [Spec.Sign.apply, decimal]; omega)
      simp only [signRunes, Spec.Sign.text, List.map_nil, List.nil_append, List.append_nil, Spec.Sign.apply] at h4
      have h5 : ([k2, k3].map (48 + ·)).take 3 = [k2, k3].map (48 + ·) := rfl
      rw [h5, h4]; rfl
    · intro x hx
      simp only [List.mem_append, List.mem_singleton] at hx
      rcases hx with hx | hx | hx
      · subst hx; decide
      · exact asciiDigits_ascii hda x hx
      · exact asciiDigits_ascii hdb x hx
  rw [htxt] at h1
  simp only [hsc, both, Option.map_some, Option.some.injEq, Dims.mk.injEq] at h1
  have e2 : (finish E h rows).dx = h.dx := rfl
  have e3 : (finish E h rows).dy = h.dy := rfl
  rw [e2, e3, ← h1.2.2.1, ← h1.2.2.2]
  simp [decimal]
  omega

/-- 10 rows and 1 column in the header become 100 rows of 1 column -/
example : ∃ c, Success env0 (str "RX021310100000217BY131BG 10001" ++ [3] ++ List.replicate 100 7) c ∧
    (c.dy == 100 && c.dx == 1) = true :=
  success_of_okWith (by decide +kernel)

end Props
