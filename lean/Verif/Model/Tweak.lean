import Verif.Model.Block

/-!
# The limit on tweaks

In a file of its own because nothing in the library calls it.
-/

namespace Kripto

/-- lib/block.c:145-150 `kripto_block_maxtweak` -/
def kripto_block_maxtweak (d : Cipher) : Nat := d.maxtweak

end Kripto
