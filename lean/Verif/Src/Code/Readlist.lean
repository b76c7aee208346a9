import Verif.Src.Code.Headers
/-
  Generated by tools/c2lean.py from tests/readlist.c.
-/
namespace Iff.Src

/-- readlist.c:26-45 -/
def readlist_main.code : Fun where
  params := [(.argc, (.int .int)), (.argv, (.ptr (.ptr (.int .char))))]
  ret := (.int .int)
  body :=
    (.seq (.decl .chunk (.ptr (.struct .IFF_Chunk)) (some (.call (.fn .IFF_read) (.cons (.str "list.TEST") (.cons .null .nil)))))
      (.ite (.bin .eq (.var .chunk) .null)
      (.seq (.expr (.call (.fn .fprintf) (.cons (.stream .stderr) (.cons (.str "Cannot open 'list.TEST'\n") .nil))))
        (.ret (.num .int 1)))
      (.seq (.decl .«list» (.ptr (.struct .IFF_List)) (some (.call (.fn .listdata_IFF_createTestList) .nil)))
        (.seq (.decl .status (.int .int) (some (.not (.call (.fn .IFF_compare) (.cons (.var .chunk) (.cons (.cast (.ptr (.struct .IFF_Chunk)) (.var .«list»)) (.cons .null .nil)))))))
        (.seq (.expr (.call (.fn .IFF_free) (.cons (.cast (.ptr (.struct .IFF_Chunk)) (.var .«list»)) (.cons .null .nil))))
        (.seq (.expr (.call (.fn .IFF_free) (.cons (.var .chunk) (.cons .null .nil))))
        (.ret (.var .status))))))))

end Iff.Src
