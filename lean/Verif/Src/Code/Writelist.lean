import Verif.Src.Code.Headers
/-
  Generated by tools/c2lean.py from tests/writelist.c.
-/
namespace Iff.Src

/-- writelist.c:29-35 -/
def writelist_main.code : Fun where
  params := [(.argc, (.int .int)), (.argv, (.ptr (.ptr (.int .char))))]
  ret := (.int .int)
  body :=
    (.seq (.decl .«list» (.ptr (.struct .IFF_List)) (some (.call (.fn .listdata_IFF_createTestList) .nil)))
      (.seq (.decl .status (.int .int) (some (.not (.call (.fn .IFF_write) (.cons (.str "list.TEST") (.cons (.cast (.ptr (.struct .IFF_Chunk)) (.var .«list»)) (.cons .null .nil)))))))
      (.seq (.expr (.call (.fn .IFF_free) (.cons (.cast (.ptr (.struct .IFF_Chunk)) (.var .«list»)) (.cons .null .nil))))
      (.ret (.var .status)))))

end Iff.Src
