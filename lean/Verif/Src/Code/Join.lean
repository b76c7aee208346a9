import Verif.Src.Code.Headers
/-
  Generated by tools/c2lean.py from src/iffjoin/join.c.
-/
namespace Iff.Src

/-- join.c:31-61 -/
def IFF_join.code : Fun where
  params := [(.inputFilenames, (.ptr (.ptr (.int .char)))), (.inputFilenamesLength, (.int .uint)), (.outputFilename, (.ptr (.int .char)))]
  ret := (.int .int)
  body :=
    (.seq (.decl .cat (.ptr (.struct .IFF_CAT)) (some (.call (.fn .IFF_createEmptyCAT) .nil)))
      (.seq (.decl .i (.int .uint) none)
      (.seq (.decl .status (.int .int) (some (.num .int 0)))
      (.seq (.for (.assign (.var .i) (.num .int 0)) (.bin .lt (.var .i) (.var .inputFilenamesLength)) (.inc (.var .i))
        (.seq (.decl .chunk (.ptr (.struct .IFF_Chunk)) (some (.call (.fn .IFF_readFile) (.cons (.index (.var .inputFilenames) (.var .i)) (.cons .null .nil)))))
          (.ite (.lor (.bin .eq (.var .chunk) .null) (.not (.call (.fn .IFF_check) (.cons (.var .chunk) (.cons .null .nil)))))
          (.seq (.expr (.call (.fn .IFF_free) (.cons (.cast (.ptr (.struct .IFF_Chunk)) (.var .cat)) (.cons .null .nil))))
            (.ret (.num .int 1)))
          (.expr (.call (.fn .IFF_addToCATAndUpdateContentsType) (.cons (.var .cat) (.cons (.var .chunk) .nil)))))))
      (.seq (.ite (.not (.call (.fn .IFF_write) (.cons (.var .outputFilename) (.cons (.cast (.ptr (.struct .IFF_Chunk)) (.var .cat)) (.cons .null .nil)))))
        (.expr (.assign (.var .status) (.num .int 1)))
        .skip)
      (.seq (.expr (.call (.fn .IFF_free) (.cons (.cast (.ptr (.struct .IFF_Chunk)) (.var .cat)) (.cons .null .nil))))
      (.ret (.var .status))))))))

end Iff.Src
