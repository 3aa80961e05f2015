.lake/
*.olean
lake-manifest.json
