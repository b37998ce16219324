.lake/
build/
lake-manifest.json
