import Verif.Base.Bytes
namespace Kripto

/-- The linear map that sends the bits of a byte, the most significant one first, to the given bytes. -/
def linear (cols : List Byte) (x : Byte) : Byte :=
  (List.range 8).foldl (fun s i => if x.getLsbD (7 - i) then s ^^^ cols.getD i 0 else s) 0

end Kripto
