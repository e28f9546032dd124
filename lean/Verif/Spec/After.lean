/-! # Vocabulary: fields of data that ends early -/

namespace Egts

/-- The value `p` of a field whose bytes are number `i` to `j - 1`, after data that ends after `n` bytes: that of the whole data (`new`) if
all of its bytes are there, what was there before (`old`) if none is. -/
def CutField {α : Type} (i j n : Nat) (p new old : α) : Prop := (j ≤ n → p = new) ∧ (n ≤ i → p = old)

end Egts
