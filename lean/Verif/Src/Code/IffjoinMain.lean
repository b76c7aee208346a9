import Verif.Src.Code.Headers
/-
  Generated by tools/c2lean.py from src/iffjoin/main.c.
-/
namespace Iff.Src

/-- iffjoin/main.c:34-54 -/
def iffjoin_printUsage.code : Fun where
  params := [(.command, (.ptr (.int .char)))]
  ret := .void
  body :=
    (.seq (.expr (.call (.fn .printf) (.cons (.str "Usage: %s [OPTION] file1.IFF file2.IFF ...\n\n") (.cons (.var .command) .nil))))
      (.expr (.call (.fn .puts) (.cons (.str "The command `iffjoin' joins an aribitrary number of IFF files into a single\nconcatenation IFF file. The result is written to the standard output, or\noptionally to a given destination file.\n\nOptions:\n  -o, --output-file=FILE    Specify an output file name\n  -h, --help                Shows the usage of this command to the user\n  -v, --version             Shows the version of this command to the user") .nil))))

/-- iffjoin/main.c:56-62 -/
def iffjoin_printVersion.code : Fun where
  params := [(.command, (.ptr (.int .char)))]
  ret := .void
  body :=
    (.expr (.call (.fn .printf) (.cons (.str "%s (libiff) 0.1\n\nCopyright (C) 2012-2015 Sander van der Burg\n") (.cons (.var .command) .nil))))

/-- iffjoin/main.c:64-154 -/
def iffjoin_main.code : Fun where
  params := [(.argc, (.int .int)), (.argv, (.ptr (.ptr (.int .char))))]
  ret := (.int .int)
  body :=
    (.seq (.decl .outputFilename (.ptr (.int .char)) (some .null))
      (.seq (.decl .c (.int .int) none)
      (.seq (.object .option_index (.int .int) (some (.num .int 0)))
      (.seq (.aggregate .long_options (.arr 4 (.struct .option)) [.expr (.str "output-file"), .expr (.num .int 1), .null, .expr (.num .int 111), .expr (.str "help"), .expr (.num .int 0), .null, .expr (.num .int 104), .expr (.str "version"), .expr (.num .int 0), .null, .expr (.num .int 118), .null, .expr (.num .int 0), .null, .expr (.num .int 0)])
      (.seq (.while (.bin .ne (.assign (.var .c) (.call (.fn .getopt_long) (.cons (.var .argc) (.cons (.var .argv) (.cons (.str "o:hv") (.cons (.var .long_options) (.cons (.addr (.var .option_index)) .nil))))))) (.neg (.num .int 1)))
        (.switch (.var .c)
          (.case (.num .int 111) (.seq (.expr (.assign (.var .outputFilename) .optarg))
            .break)
          (.case (.num .int 104) (.seq (.expr (.call (.fn .iffjoin_printUsage) (.cons (.index (.var .argv) (.num .int 0)) .nil)))
            (.ret (.num .int 0)))
          (.case (.num .int 63) (.seq (.expr (.call (.fn .iffjoin_printUsage) (.cons (.index (.var .argv) (.num .int 0)) .nil)))
            (.ret (.num .int 1)))
          (.case (.num .int 118) (.seq (.expr (.call (.fn .iffjoin_printVersion) (.cons (.index (.var .argv) (.num .int 0)) .nil)))
            (.ret (.num .int 0)))
          .nil))))))
      (.ite (.bin .ge .optind (.var .argc))
      (.seq (.expr (.call (.fn .fprintf) (.cons (.stream .stderr) (.cons (.str "ERROR: No IFF input files given!\n") .nil))))
        (.ret (.num .int 1)))
      (.seq (.decl .inputFilenamesLength (.int .uint) (some (.bin .sub (.var .argc) .optind)))
        (.seq (.decl .inputFilenames (.ptr (.ptr (.int .char))) (some (.cast (.ptr (.ptr (.int .char))) (.call (.fn .malloc) (.cons (.bin .mul (.var .inputFilenamesLength) (.sizeof (.ptr (.int .char)))) .nil)))))
        (.seq (.decl .i (.int .uint) none)
        (.seq (.decl .status (.int .int) none)
        (.seq (.for (.assign (.var .i) (.num .int 0)) (.bin .lt (.var .i) (.var .inputFilenamesLength)) (.inc (.var .i))
          (.expr (.assign (.index (.var .inputFilenames) (.var .i)) (.index (.var .argv) (.bin .add .optind (.var .i))))))
        (.seq (.expr (.assign (.var .status) (.call (.fn .IFF_join) (.cons (.var .inputFilenames) (.cons (.var .inputFilenamesLength) (.cons (.var .outputFilename) .nil))))))
        (.seq (.expr (.call (.fn .free) (.cons (.var .inputFilenames) .nil)))
        (.ret (.var .status)))))))))))))))

/-- iffjoin/main.c:64-154 -/
def iffjoin_mainPosix.code : Fun where
  params := [(.argc, (.int .int)), (.argv, (.ptr (.ptr (.int .char))))]
  ret := (.int .int)
  body :=
    (.seq (.decl .outputFilename (.ptr (.int .char)) (some .null))
      (.seq (.decl .c (.int .int) none)
      (.seq (.while (.bin .ne (.assign (.var .c) (.call (.fn .getopt) (.cons (.var .argc) (.cons (.var .argv) (.cons (.str "o:hv") .nil))))) (.neg (.num .int 1)))
        (.switch (.var .c)
          (.case (.num .int 111) (.seq (.expr (.assign (.var .outputFilename) .optarg))
            .break)
          (.case (.num .int 104) (.seq (.expr (.call (.fn .iffjoin_printUsage) (.cons (.index (.var .argv) (.num .int 0)) .nil)))
            (.ret (.num .int 0)))
          (.case (.num .int 63) (.seq (.expr (.call (.fn .iffjoin_printUsage) (.cons (.index (.var .argv) (.num .int 0)) .nil)))
            (.ret (.num .int 1)))
          (.case (.num .int 118) (.seq (.expr (.call (.fn .iffjoin_printVersion) (.cons (.index (.var .argv) (.num .int 0)) .nil)))
            (.ret (.num .int 0)))
          .nil))))))
      (.ite (.bin .ge .optind (.var .argc))
      (.seq (.expr (.call (.fn .fprintf) (.cons (.stream .stderr) (.cons (.str "ERROR: No IFF input files given!\n") .nil))))
        (.ret (.num .int 1)))
      (.seq (.decl .inputFilenamesLength (.int .uint) (some (.bin .sub (.var .argc) .optind)))
        (.seq (.decl .inputFilenames (.ptr (.ptr (.int .char))) (some (.cast (.ptr (.ptr (.int .char))) (.call (.fn .malloc) (.cons (.bin .mul (.var .inputFilenamesLength) (.sizeof (.ptr (.int .char)))) .nil)))))
        (.seq (.decl .i (.int .uint) none)
        (.seq (.decl .status (.int .int) none)
        (.seq (.for (.assign (.var .i) (.num .int 0)) (.bin .lt (.var .i) (.var .inputFilenamesLength)) (.inc (.var .i))
          (.expr (.assign (.index (.var .inputFilenames) (.var .i)) (.index (.var .argv) (.bin .add .optind (.var .i))))))
        (.seq (.expr (.assign (.var .status) (.call (.fn .IFF_join) (.cons (.var .inputFilenames) (.cons (.var .inputFilenamesLength) (.cons (.var .outputFilename) .nil))))))
        (.seq (.expr (.call (.fn .free) (.cons (.var .inputFilenames) .nil)))
        (.ret (.var .status)))))))))))))

/-- iffjoin/main.c:34-54 -/
def iffjoin_printUsageMsvc.code : Fun where
  params := [(.command, (.ptr (.int .char)))]
  ret := .void
  body :=
    (.seq (.expr (.call (.fn .printf) (.cons (.str "Usage: %s [OPTION] file1.IFF file2.IFF ...\n\n") (.cons (.var .command) .nil))))
      (.expr (.call (.fn .puts) (.cons (.str "The command `iffjoin' joins an aribitrary number of IFF files into a single\nconcatenation IFF file. The result is written to the standard output, or\noptionally to a given destination file.\n\nOptions:\n  /o FILE    Specify an output file name\n  /?         Shows the usage of this command to the user\n  /v         Shows the version of this command to the user") .nil))))

/-- iffjoin/main.c:64-154 -/
def iffjoin_mainMsvc.code : Fun where
  params := [(.argc, (.int .int)), (.argv, (.ptr (.ptr (.int .char))))]
  ret := (.int .int)
  body :=
    (.seq (.decl .outputFilename (.ptr (.int .char)) (some .null))
      (.seq (.decl .optind (.int .uint) (some (.num .int 1)))
      (.seq (.decl .i (.int .uint) none)
      (.seq (.for (.assign (.var .i) (.num .int 1)) (.bin .lt (.var .i) (.var .argc)) (.inc (.var .i))
        (.ite (.bin .eq (.call (.fn .strcmp) (.cons (.index (.var .argv) (.var .i)) (.cons (.str "/o") .nil))) (.num .int 0))
          (.seq (.expr (.assign (.var .outputFilename) (.index (.var .argv) (.var .i))))
            (.expr (.inc (.var .optind))))
          (.ite (.bin .eq (.call (.fn .strcmp) (.cons (.index (.var .argv) (.var .i)) (.cons (.str "/?") .nil))) (.num .int 0))
            (.seq (.expr (.call (.fn .iffjoin_printUsageMsvc) (.cons (.index (.var .argv) (.num .int 0)) .nil)))
              (.ret (.num .int 0)))
            (.ite (.bin .eq (.call (.fn .strcmp) (.cons (.index (.var .argv) (.var .i)) (.cons (.str "/v") .nil))) (.num .int 0))
              (.seq (.expr (.call (.fn .iffjoin_printVersion) (.cons (.index (.var .argv) (.num .int 0)) .nil)))
                (.ret (.num .int 0)))
              .skip))))
      (.ite (.bin .ge (.var .optind) (.var .argc))
      (.seq (.expr (.call (.fn .fprintf) (.cons (.stream .stderr) (.cons (.str "ERROR: No IFF input files given!\n") .nil))))
        (.ret (.num .int 1)))
      (.seq (.decl .inputFilenamesLength (.int .uint) (some (.bin .sub (.var .argc) (.var .optind))))
        (.seq (.decl .inputFilenames (.ptr (.ptr (.int .char))) (some (.cast (.ptr (.ptr (.int .char))) (.call (.fn .malloc) (.cons (.bin .mul (.var .inputFilenamesLength) (.sizeof (.ptr (.int .char)))) .nil)))))
        (.seq (.decl .i_1 (.int .uint) none)
        (.seq (.decl .status (.int .int) none)
        (.seq (.for (.assign (.var .i_1) (.num .int 0)) (.bin .lt (.var .i_1) (.var .inputFilenamesLength)) (.inc (.var .i_1))
          (.expr (.assign (.index (.var .inputFilenames) (.var .i_1)) (.index (.var .argv) (.bin .add (.var .optind) (.var .i_1))))))
        (.seq (.expr (.assign (.var .status) (.call (.fn .IFF_join) (.cons (.var .inputFilenames) (.cons (.var .inputFilenamesLength) (.cons (.var .outputFilename) .nil))))))
        (.seq (.expr (.call (.fn .free) (.cons (.var .inputFilenames) .nil)))
        (.ret (.var .status))))))))))))))

end Iff.Src
