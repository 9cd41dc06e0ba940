import Verif.Test.HashBasic
import Verif.Model.Hash.Whirlpool
/-! Tests (not proofs): the vectors of /repo/test/hash/whirlpool.c run on the model. -/
namespace Kripto.Test
open Kripto

#guard hashVector whirlpool 0 (hex "")
  (hex "")
  (hex "19fa61d75522a4669b44e39c1d2e1726c530232130d407f89afee0964997f7a73e83be698b288febcf88e3e03c4f0757ea8964e59b63d93708b138cc42a66eb3")
#guard hashVector whirlpool 0 (hex "")
  (hex "61")
  (hex "8aca2602792aec6f11a67206531fb7d7f0dff59413145e6973c45001d0087b42d11bc645413aeff63a42391a39145a591a92200d560195e53b478584fdae231a")
#guard hashVector whirlpool 0 (hex "")
  (hex "4142434445464748494a4b4c4d4e4f505152535455565758595a6162636465666768696a6b6c6d6e6f707172737475767778797a30313233343536373839")
  (hex "dc37e008cf9ee69bf11f00ed9aba26901dd7c28cdec066cc6af42e40f82f3a1e08eba26629129d8fb7cb57211b9281a65517cc879d7b962142c65f5a7af01467")
#guard hashVector whirlpool 0 (hex "")
  (hex "3132333435363738393031323334353637383930313233343536373839303132333435363738393031323334353637383930313233343536373839303132333435363738393031323334353637383930")
  (hex "466ef18babb0154d25b9d38a6414f5c08784372bccb204d6549c4afadb6014294d5bd8df2a6c44e538cd047b2681a51a2c60481e88c5a20b2c2a80cf3a9a083b")

end Kripto.Test
