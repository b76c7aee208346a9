import Verif.Src.Code.Headers
/-
  Generated by tools/c2lean.py from tests/readcat.c.
-/
namespace Iff.Src

/-- readcat.c:26-45 -/
def readcat_main.code : Fun where
  params := [(.argc, (.int .int)), (.argv, (.ptr (.ptr (.int .char))))]
  ret := (.int .int)
  body :=
    (.seq (.decl .chunk (.ptr (.struct .IFF_Chunk)) (some (.call (.fn .IFF_read) (.cons (.str "cat.TEST") (.cons .null .nil)))))
      (.ite (.bin .eq (.var .chunk) .null)
      (.seq (.expr (.call (.fn .fprintf) (.cons (.stream .stderr) (.cons (.str "Cannot open 'cat.TEST'\n") .nil))))
        (.ret (.num .int 1)))
      (.seq (.decl .cat (.ptr (.struct .IFF_CAT)) (some (.call (.fn .catdata_IFF_createTestCAT) .nil)))
        (.seq (.decl .status (.int .int) (some (.not (.call (.fn .IFF_compare) (.cons (.var .chunk) (.cons (.cast (.ptr (.struct .IFF_Chunk)) (.var .cat)) (.cons .null .nil)))))))
        (.seq (.expr (.call (.fn .IFF_free) (.cons (.var .chunk) (.cons .null .nil))))
        (.seq (.expr (.call (.fn .IFF_free) (.cons (.cast (.ptr (.struct .IFF_Chunk)) (.var .cat)) (.cons .null .nil))))
        (.ret (.var .status))))))))

end Iff.Src
