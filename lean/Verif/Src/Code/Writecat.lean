import Verif.Src.Code.Headers
/-
  Generated by tools/c2lean.py from tests/writecat.c.
-/
namespace Iff.Src

/-- writecat.c:25-31 -/
def writecat_main.code : Fun where
  params := [(.argc, (.int .int)), (.argv, (.ptr (.ptr (.int .char))))]
  ret := (.int .int)
  body :=
    (.seq (.decl .cat (.ptr (.struct .IFF_CAT)) (some (.call (.fn .catdata_IFF_createTestCAT) .nil)))
      (.seq (.decl .status (.int .int) (some (.not (.call (.fn .IFF_write) (.cons (.str "cat.TEST") (.cons (.cast (.ptr (.struct .IFF_Chunk)) (.var .cat)) (.cons .null .nil)))))))
      (.seq (.expr (.call (.fn .IFF_free) (.cons (.cast (.ptr (.struct .IFF_Chunk)) (.var .cat)) (.cons .null .nil))))
      (.ret (.var .status)))))

end Iff.Src
